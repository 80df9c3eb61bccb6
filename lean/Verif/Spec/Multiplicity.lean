import Verif.Spec.Diffraction

/-! # Specification: how many reflections are equivalent -/

namespace Verif

/-- The reflections `h` looks like through the operations of the group. -/
def Equivalents (n : HallSymbolNotation) (h : V3) : Set V3 := {h' | ∃ f, SpaceGroup n f ∧ ReflectionThrough f h h'}

/-- The rotations of the group that leave the phase differences `h x + k y + l z` of all displacements alone. -/
def ReflectionRotations (n : HallSymbolNotation) (h : V3) : Set M3 :=
  {r ∈ PointGroup n | ∀ v : V3, V3.dot h (r.mulVec v) = V3.dot h v}

end Verif
