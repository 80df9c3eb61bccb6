import Verif.Proofs.SettingCheck

/-! Generated by tools/gen_settings.py; checked by the kernel. -/

namespace Verif

/-- Rows of the full table with two origin choices. -/
def originRows4 : List OriginRow := [
  ⟨520, 521, "P 4n 2 3 -1n", "-P 4bc 2bc 3", ⟨-6, -6, -6⟩⟩,
  ⟨524, 525, "F 4d 2 3 -1d", "-F 4vw 2vw 3", ⟨-3, -3, -3⟩⟩,
  ⟨526, 527, "F 4d 2 3 -1cd", "-F 4cvw 2vw 3", ⟨-9, -9, -9⟩⟩]

theorem originRows4_ok : originRows4.all OriginRow.check = true := by decide +kernel

end Verif
