import Verif.Data.Arith
import Verif.Data.ArithPairs

/-! # The tables of the classification are right -/

namespace Verif.Arith
open Verif.Subs

set_option maxRecDepth 100000 in
theorem classes_check : classes.all (·.check) = true := by decide +kernel

set_option maxRecDepth 100000 in
theorem cubic_pairs : pairsCheck classes cubicExplicit cubicSubs cubicPairs = true := by decide +kernel

set_option maxRecDepth 100000 in
theorem hex_pairs : pairsCheck classes hexExplicit hexSubs hexPairs = true := by decide +kernel

end Verif.Arith
