import Verif.Proofs.SettingCheck

/-! Generated by tools/gen_settings.py; checked by the kernel. -/

namespace Verif

/-- Rows of the full table with two origin choices. -/
def originRows2 : List OriginRow := [
  ⟨413, 414, "P 4n 2c -1n", "-P 4ac 2b", ⟨-6, 6, -6⟩⟩,
  ⟨415, 416, "P 4n 2 -1n", "-P 4ac 2bc", ⟨-6, 6, -6⟩⟩,
  ⟨419, 420, "P 4n 2n -1n", "-P 4ac 2a", ⟨-6, 6, -6⟩⟩,
  ⟨421, 422, "P 4n 2ab -1n", "-P 4ac 2ac", ⟨-6, 6, -6⟩⟩,
  ⟨425, 426, "I 4bw 2bw -1bw", "-I 4bd 2", ⟨0, 6, -3⟩⟩,
  ⟨427, 428, "I 4bw 2aw -1bw", "-I 4bd 2c", ⟨0, 6, -3⟩⟩]

theorem originRows2_ok : originRows2.all OriginRow.check = true := by decide +kernel

end Verif
