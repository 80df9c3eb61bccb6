import Verif.Data.Functionals

/-! Generated by tools/gen_rows.py; checked by the kernel. -/

namespace Verif

/-- Rows of the tables. -/
def rows13 : List Row := [
  ⟨216, "F -4 2 3", "F -4 2 3", 6404236178257126, true, idM, idM⟩,
  ⟨217, "I -4 2 3", "I -4 2 3", 6404236178257124, true, idM, idM⟩,
  ⟨218, "P -4n 2 3", "P -4n 2 3", 774769655331979424992, true, idM, idM⟩,
  ⟨219, "F -4c 2 3", "F -4c 2 3", 774769655331979424998, true, idM, idM⟩,
  ⟨220, "I -4bd 2c 3", "I -4bd 2c 3", 774769655331979424996, true, idM, idM⟩,
  ⟨221, "-P 4 2 3", "-P 4 2 3", 542332853759490192, true, idM, idM⟩,
  ⟨222, "P 4 2 3 -1n", "P 4 2 3 -1n", 10072464597099174672528, true, idM, idM⟩,
  ⟨222, "P 4 2 3 -1n", "-P 4a 2bc 3", 10072464597099174672528, true, ⟨⟨1, 0, 0, 0, 1, 0, 0, 0, 1⟩, ⟨3, 3, 3⟩, 1⟩, ⟨⟨1, 0, 0, 0, 1, 0, 0, 0, 1⟩, ⟨-3, -3, -3⟩, 1⟩⟩]

theorem rows13_ok : rows13.all (rowCheck functionals) = true := by decide +kernel

end Verif
