import Verif.Data.Functionals

/-! Generated by tools/gen_rows.py; checked by the kernel. -/

namespace Verif

/-- Rows of the tables. -/
def rows15 : List Row := [
  ⟨227, "F 4d 2 3 -1d", "F 4d 2 3 -1d", 10072464597099174672534, true, idM, idM⟩,
  ⟨227, "F 4d 2 3 -1d", "-F 4vw 2vw 3", 10072464597099174672534, true, ⟨⟨2, 0, 0, 0, 2, 0, 0, 0, 2⟩, ⟨9, 9, 9⟩, 2⟩, ⟨⟨2, 0, 0, 0, 2, 0, 0, 0, 2⟩, ⟨-9, -9, -9⟩, 2⟩⟩,
  ⟨228, "F 4d 2 3 -1cd", "F 4d 2 3 -1cd", 10847227848194975840406, true, idM, idM⟩,
  ⟨228, "F 4d 2 3 -1cd", "-F 4cvw 2vw 3", 10847227848194975840406, true, ⟨⟨2, 0, 0, 0, 2, 0, 0, 0, 2⟩, ⟨3, 3, 3⟩, 2⟩, ⟨⟨2, 0, 0, 0, 2, 0, 0, 0, 2⟩, ⟨-3, -3, -3⟩, 2⟩⟩]

theorem rows15_ok : rows15.all (rowCheck functionals) = true := by decide +kernel

end Verif
