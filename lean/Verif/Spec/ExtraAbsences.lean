import Verif.Spec.Diffraction
import Verif.Spec.Symmorphic

/-! # Specification: reflections forbidden by more than the lattice -/

namespace Verif

/-- A translation of the group moves the planes `h x + k y + l z = const` by a fraction of their distance. -/
def ForbiddenByTranslation (n : HallSymbolNotation) (h : V3) : Prop :=
  ∃ f, SpaceGroup n f ∧ IsTranslation f ∧ ∃ c : ℚ, (∀ k : ℤ, c ≠ k) ∧ ∀ p, h.phase (f p) = h.phase p + c

/-- The group forbids reflections that its translations alone do not forbid. -/
def ExtraAbsences (n : HallSymbolNotation) : Prop := ∃ h, Absent n h ∧ ¬ ForbiddenByTranslation n h

/-- The numbers with reflection conditions besides those of the lattice: the symmorphic types have none, and of the others
only 24 (`I 21 21 21`) and 199 (`I 21 3`) have none. -/
def ExtraNumber (k : Nat) : Prop := (1 ≤ k ∧ k ≤ 230) ∧ k ∉ symmorphicNumbers ∧ k ≠ 24 ∧ k ≠ 199

end Verif
