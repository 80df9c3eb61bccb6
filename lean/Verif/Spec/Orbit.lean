import Verif.Spec.Group

/-! # Specification: sites, equivalent points -/

namespace Verif

/-- The same site of the crystal: the points differ by whole cells. -/
def SameSite (p q : Pt) : Prop := ∃ k : V3, q = p.addCell k

/-- `q` is symmetry-equivalent to `p`: an operation of the group takes `p` to `q`. -/
def Equivalent (n : HallSymbolNotation) (p q : Pt) : Prop := ∃ f, SpaceGroup n f ∧ f p = q

/-- How many of the operations take `p` to the site `q`. -/
noncomputable def hits (ops : List M4) (p q : Pt) : Nat :=
  open Classical in ops.countP (fun m => decide (SameSite (m.act p) q))

end Verif
