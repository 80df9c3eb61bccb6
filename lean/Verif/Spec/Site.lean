import Verif.Spec.Orbit
import Verif.Spec.CrystalClass

/-! # Specification: site symmetry -/

namespace Verif

/-- `f` is a symmetry of the site `p`: an operation of the group that leaves the point `p` where it is. -/
def SiteSymmetry (n : HallSymbolNotation) (p : Pt) (f : Pt → Pt) : Prop := SpaceGroup n f ∧ f p = p

/-- How many of the operations take `p` to itself up to whole cells and are classified as `t` by `rotation_type`. -/
noncomputable def siteCount (ops : List M4) (p : Pt) (t : RotationType) : Nat :=
  hits (ops.filter fun m => decide (m.rotationType = some t)) p p

end Verif
