import Verif.Model.Seitz

/-!
# The matrix of fractions

Model of `to_fraction`, src/hall_symbols/matrix_symbol/matrices/seitz_mat_impl.rs:191-203. A `GenericFraction<i32>` of the
crate `fraction` (external) keeps sign and a reduced numerator and denominator: here a `Rat`. Simplification: the i32 range
of numerator and denominator is not modelled (they are never larger than the entry and 12).
-/

namespace Verif

/-- `to_fraction`: the four rows; the entries are the integers themselves, those of the fourth column in the first three
rows are divided by 12. -/
def M4.toFraction (m : M4) : List (List Rat) :=
  [[(m.rot.m11 : Rat), m.rot.m12, m.rot.m13, (m.tr.x : Rat) / 12],
   [(m.rot.m21 : Rat), m.rot.m22, m.rot.m23, (m.tr.y : Rat) / 12],
   [(m.rot.m31 : Rat), m.rot.m32, m.rot.m33, (m.tr.z : Rat) / 12],
   [(m.bot.x : Rat), m.bot.y, m.bot.z, (m.w : Rat)]]

end Verif
