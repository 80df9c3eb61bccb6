import Verif.Data.Mirror

/-! # The changes of basis to the groups of opposite hand are right -/

namespace Verif

set_option maxRecDepth 100000 in
theorem mirrorRows_ok : mirrorRows.all MirrorRow.check = true := by decide +kernel

/-- Every place of the default table has data or an improper generator. -/
def mirrorCovered (i : Nat) : Bool :=
  mirrorRows.any (fun r => Nat.beq r.i i) || (improperB (Data.defaultHallName.getD i "") && Nat.beq (mirrorNumber (i + 1)) (i + 1))

set_option maxRecDepth 100000 in
theorem mirrorCovered_all : (List.range 230).all mirrorCovered = true := by decide +kernel

end Verif
