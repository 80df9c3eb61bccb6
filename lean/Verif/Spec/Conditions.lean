import Verif.Spec.Diffraction

/-! # Specification: reflection conditions of the lattice -/

namespace Verif

/-- The condition for reflections `h k l` the International Tables give for each lattice letter. -/
def LatticeCondition (h : V3) : Lattices → Prop
  | .P => True
  | .A => (2 : Int) ∣ h.y + h.z
  | .B => (2 : Int) ∣ h.x + h.z
  | .C => (2 : Int) ∣ h.x + h.y
  | .I => (2 : Int) ∣ h.x + h.y + h.z
  | .R => (3 : Int) ∣ - h.x + h.y + h.z
  | .F => ((2 : Int) ∣ h.y + h.z) ∧ ((2 : Int) ∣ h.x + h.z) ∧ (2 : Int) ∣ h.x + h.y

/-- No operation of the group but translations keeps the planes `h x + k y + l z = const` parallel to themselves, in the same
sense. -/
def GeneralReflection (n : HallSymbolNotation) (h : V3) : Prop :=
  ∀ f, SpaceGroup n f → (∃ c : ℚ, ∀ p, h.phase (f p) = h.phase p + c) → IsTranslation f

end Verif
