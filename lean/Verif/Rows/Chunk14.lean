import Verif.Data.Functionals

/-! Generated by tools/gen_rows.py; checked by the kernel. -/

namespace Verif

/-- Rows of the tables. -/
def rows14 : List Row := [
  ⟨223, "-P 4n 2 3", "-P 4n 2 3", 775305583949560658064, true, idM, idM⟩,
  ⟨224, "P 4n 2 3 -1n", "P 4n 2 3 -1n", 10847227848194975840400, true, idM, idM⟩,
  ⟨224, "P 4n 2 3 -1n", "-P 4bc 2bc 3", 10847227848194975840400, true, ⟨⟨1, 0, 0, 0, 1, 0, 0, 0, 1⟩, ⟨3, 3, 3⟩, 1⟩, ⟨⟨1, 0, 0, 0, 1, 0, 0, 0, 1⟩, ⟨-3, -3, -3⟩, 1⟩⟩,
  ⟨225, "-F 4 2 3", "-F 4 2 3", 542332853759490198, true, idM, idM⟩,
  ⟨226, "-F 4c 2 3", "-F 4c 2 3", 775305583949560658070, true, idM, idM⟩]

theorem rows14_ok : rows14.all (rowCheck functionals) = true := by decide +kernel

end Verif
