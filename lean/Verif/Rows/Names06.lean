import Verif.Proofs.NameCheck

/-! Generated by tools/gen_names.py; checked by the kernel. -/

namespace Verif.HM

/-- Rows with their names. -/
def names06 : List NameRow := [
  ⟨"-P 2ab 2bc 3", "P n -3:2", true, 17592194433024, 4718592⟩,
  ⟨"-F 2 2 3", "F m -3", true, 17592190238720, 2097152⟩,
  ⟨"F 2 2 3 -1d", "F d -3:1", true, 17592188141568, 4194304⟩,
  ⟨"-F 2uv 2vw 3", "F d -3:2", true, 17592188141568, 4194304⟩,
  ⟨"-I 2 2 3", "I m -3", true, 17592190238720, 524288⟩,
  ⟨"-P 2ac 2ab 3", "P a -3", true, 17592186568704, 12582912⟩,
  ⟨"-I 2b 2c 3", "I a -3", true, 17592186568704, 4194304⟩,
  ⟨"P 4 2 3", "P 4 3 2", true, 8798240505888, 448⟩,
  ⟨"P 4n 2 3", "P 42 3 2", true, 8798240505984, 352⟩,
  ⟨"F 4 2 3", "F 4 3 2", true, 8798240505888, 64⟩,
  ⟨"F 4d 2 3", "F 41 3 2", true, 8798240505920, 32⟩,
  ⟨"I 4 2 3", "I 4 3 2", true, 8798240505888, 64⟩,
  ⟨"P 4acd 2ab 3", "P 43 3 2", true, 8798240506112, 224⟩,
  ⟨"P 4bd 2ab 3", "P 41 3 2", true, 8798240505920, 416⟩]

theorem names06_ok : names06.all NameRow.check = true := by decide +kernel

end Verif.HM
