import Mathlib.Analysis.SpecialFunctions.Trigonometric.Basic
import Verif.Spec.Group

/-!
# Specification: reflections

Reflections `h k l` of a crystal, by its group of operations and by waves; nothing here refers to position generation.
-/

namespace Verif

/-- `h x + k y + l z`. -/
def V3.phase (h : V3) (p : Pt) : ℚ := h.x * p.x + h.y * p.y + h.z * p.z

/-- The wave `exp(2πi (h x + k y + l z))`. -/
noncomputable def wave (h : V3) (p : Pt) : ℂ := Complex.exp (2 * Real.pi * Complex.I * (h.phase p : ℚ))

/-- The structure sum: what unit scatterers at the images of `p` under the operations contribute to the reflection. -/
noncomputable def structureSum (ops : List M4) (h : V3) (p : Pt) : ℂ := (ops.map fun m => wave h (m.act p)).sum

/-- The symmetry forbids the reflection: some operation of the group keeps the planes `h x + k y + l z = const` parallel to
themselves and moves them by a fraction of their distance. -/
def Absent (n : HallSymbolNotation) (h : V3) : Prop :=
  ∃ f, SpaceGroup n f ∧ ∃ c : ℚ, (∀ k : ℤ, c ≠ k) ∧ ∀ p, h.phase (f p) = h.phase p + c

/-- The reflection `h'` is `h` seen through the operation `f`. -/
def ReflectionThrough (f : Pt → Pt) (h h' : V3) : Prop := ∃ c : ℚ, ∀ p, h.phase (f p) = h'.phase p + c

end Verif
