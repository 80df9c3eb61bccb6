import Verif.Spec.Group

/-! # Specification: groups without fixed points -/

namespace Verif

/-- No operation of the group but the identity leaves a point where it is. -/
def FixedPointFree (n : HallSymbolNotation) : Prop :=
  ∀ f, SpaceGroup n f → ∀ p : Pt, f p = p → f = id

/-- The numbers of the 13 space-group types without special positions (the Bieberbach groups). -/
def freeNumbers : List Nat := [1, 4, 7, 9, 19, 29, 33, 76, 78, 144, 145, 169, 170]

end Verif
