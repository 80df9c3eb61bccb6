import Verif.Proofs.SettingCheck

/-! Generated by tools/gen_settings.py; checked by the kernel. -/

namespace Verif

/-- Rows of the full table with two origin choices. -/
def originRows3 : List OriginRow := [
  ⟨494, 495, "P 2 2 3 -1n", "-P 2ab 2bc 3", ⟨-6, -6, -6⟩⟩,
  ⟨497, 498, "F 2 2 3 -1d", "-F 2uv 2vw 3", ⟨-3, -3, -3⟩⟩,
  ⟨517, 518, "P 4 2 3 -1n", "-P 4a 2bc 3", ⟨-6, -6, -6⟩⟩]

theorem originRows3_ok : originRows3.all OriginRow.check = true := by decide +kernel

end Verif
