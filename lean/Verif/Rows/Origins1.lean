import Verif.Proofs.SettingCheck

/-! Generated by tools/gen_settings.py; checked by the kernel. -/

namespace Verif

/-- Rows of the full table with two origin choices. -/
def originRows1 : List OriginRow := [
  ⟨227, 228, "P 2 2 -1n", "-P 2ab 2bc", ⟨6, 6, 6⟩⟩,
  ⟨232, 233, "P 2 2 -1ab", "-P 2ab 2b", ⟨6, 6, 0⟩⟩,
  ⟨277, 278, "P 2 2ab -1ab", "-P 2ab 2a", ⟨6, 6, 0⟩⟩,
  ⟨321, 322, "C 2 2 -1bc", "-C 2b 2bc", ⟨0, 6, 6⟩⟩,
  ⟨334, 335, "F 2 2 -1d", "-F 2uv 2vw", ⟨-3, -3, -3⟩⟩,
  ⟨358, 359, "P 4ab -1ab", "-P 4a", ⟨-6, 6, 0⟩⟩,
  ⟨360, 361, "P 4n -1n", "-P 4bc", ⟨-6, -6, -6⟩⟩,
  ⟨363, 364, "I 4bw -1bw", "-I 4ad", ⟨0, -6, -3⟩⟩,
  ⟨401, 402, "P 4 2 -1ab", "-P 4a 2b", ⟨-6, -6, 0⟩⟩,
  ⟨403, 404, "P 4 2 -1n", "-P 4a 2bc", ⟨-6, -6, -6⟩⟩,
  ⟨407, 408, "P 4ab 2ab -1ab", "-P 4a 2a", ⟨-6, 6, 0⟩⟩,
  ⟨409, 410, "P 4ab 2n -1ab", "-P 4a 2ac", ⟨-6, 6, 0⟩⟩]

theorem originRows1_ok : originRows1.all OriginRow.check = true := by decide +kernel

end Verif
