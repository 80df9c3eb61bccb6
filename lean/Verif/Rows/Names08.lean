import Verif.Proofs.NameCheck

/-! Generated by tools/gen_names.py; checked by the kernel. -/

namespace Verif.HM

/-- Rows with their names. -/
def names08 : List NameRow := [
  ⟨"-P 4n 2 3", "P m -3 n", true, 17626549977088, 17188257792⟩,
  ⟨"P 4n 2 3 -1n", "P n -3 m:1", true, 17609374302208, 34363932672⟩,
  ⟨"-P 4bc 2bc 3", "P n -3 m:2", true, 17609374302208, 34363932672⟩,
  ⟨"-F 4 2 3", "F m -3 m", true, 17609370107904, 4297064448⟩]

theorem names08_ok : names08.all NameRow.check = true := by decide +kernel

end Verif.HM
