import Verif.Proofs.NameCheck

/-! Generated by tools/gen_names.py; checked by the kernel. -/

namespace Verif.HM

/-- Rows with their names. -/
def names07 : List NameRow := [
  ⟨"I 4bd 2c 3", "I 41 3 2", true, 8798240505920, 32⟩,
  ⟨"P -4 2 3", "P -4 3 m", true, 8813273022464, 34359738368⟩,
  ⟨"F -4 2 3", "F -4 3 m", true, 8813273022464, 4294967296⟩,
  ⟨"I -4 2 3", "I -4 3 m", true, 8813273022464, 8589934592⟩,
  ⟨"P -4n 2 3", "P -4 3 n", true, 8830452891648, 17179869184⟩,
  ⟨"F -4c 2 3", "F -4 3 c", true, 8800388120576, 17179869184⟩,
  ⟨"I -4bd 2c 3", "I -4 3 d", true, 8804683087872, 17179869184⟩,
  ⟨"-P 4 2 3", "P m -3 m", true, 17609370107904, 34368126976⟩,
  ⟨"P 4 2 3 -1n", "P n -3 n:1", true, 17626554171392, 17184063488⟩,
  ⟨"-P 4a 2bc 3", "P n -3 n:2", true, 17626554171392, 17184063488⟩]

theorem names07_ok : names07.all NameRow.check = true := by decide +kernel

end Verif.HM
