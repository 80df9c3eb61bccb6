import Verif.Data.Fixed

/-! # The data on fixed points are right -/

namespace Verif

set_option maxRecDepth 100000 in
theorem fixRows_ok : fixRows.all FixRow.check = true := by decide +kernel

set_option maxRecDepth 100000 in
theorem freeRows_ok : freeNumbers.all freeRow = true := by decide +kernel

set_option maxRecDepth 100000 in
/-- Every number from 1 to 230 is covered. -/
theorem fix_covered : (List.range 230).all (fun i => freeNumbers.any (fun k => Nat.beq k (i + 1)) ||
    fixRows.any fun r => Nat.beq r.i i) = true := by decide +kernel

end Verif
