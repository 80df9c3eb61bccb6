import Verif.Rows.Names01
import Verif.Rows.Names02
import Verif.Rows.Names03
import Verif.Rows.Names04
import Verif.Rows.Names05
import Verif.Rows.Names06
import Verif.Rows.Names07
import Verif.Rows.Names08
import Verif.Rows.Names09
import Verif.Rows.Names10

/-! Generated by tools/gen_names.py; checked by the kernel. -/

namespace Verif.HM

/-- All rows with their names, in the order of `allRows`. -/
def allNames : List NameRow :=
  names01 ++ names02 ++ names03 ++ names04 ++ names05 ++ names06 ++ names07 ++ names08 ++ names09 ++ names10

theorem allNames_ok : allNames.all NameRow.check = true := by
  unfold allNames
  simp only [List.all_append, Bool.and_eq_true]
  exact ⟨⟨⟨⟨⟨⟨⟨⟨⟨names01_ok, names02_ok⟩, names03_ok⟩, names04_ok⟩, names05_ok⟩, names06_ok⟩, names07_ok⟩, names08_ok⟩, names09_ok⟩, names10_ok⟩

end Verif.HM
