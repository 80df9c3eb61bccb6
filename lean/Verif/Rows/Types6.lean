import Verif.Data.TypeSentences

/-! Generated by tools/gen_types.py; checked by the kernel. -/

namespace Verif

set_option maxRecDepth 100000

theorem type207_ok : memberCheck sents207 "P 4 2 3" [true, true, false, true] = true := by decide +kernel

theorem type208_ok : memberCheck sents207 "P 4n 2 3" [true, true, false, false] = true := by decide +kernel

theorem type209_ok : memberCheck sents207 "F 4 2 3" [false, true, false, true] = true := by decide +kernel

theorem type210_ok : memberCheck sents207 "F 4d 2 3" [false, false, false, false] = true := by decide +kernel

theorem type211_ok : memberCheck sents207 "I 4 2 3" [false, true, true, true] = true := by decide +kernel

theorem type212_ok : memberCheck sents207 "P 4acd 2ab 3" [true, false, false, false] = true := by decide +kernel

theorem type213_ok : memberCheck sents207 "P 4bd 2ab 3" [true, false, false, false] = true := by decide +kernel

theorem type214_ok : memberCheck sents207 "I 4bd 2c 3" [false, false, true, false] = true := by decide +kernel

theorem class207_ok : class207.check = true :=
  and_ok (by decide +kernel) (all_ok type207_ok (all_ok type208_ok (all_ok type209_ok (all_ok type210_ok (all_ok type211_ok (all_ok type212_ok (all_ok type213_ok (all_ok type214_ok rfl))))))))

theorem type215_ok : memberCheck sents215 "P -4 2 3" [true, false, true] = true := by decide +kernel

theorem type216_ok : memberCheck sents215 "F -4 2 3" [true, true, false] = true := by decide +kernel

theorem type217_ok : memberCheck sents215 "I -4 2 3" [true, true, true] = true := by decide +kernel

theorem type218_ok : memberCheck sents215 "P -4n 2 3" [false, false, true] = true := by decide +kernel

theorem type219_ok : memberCheck sents215 "F -4c 2 3" [false, true, false] = true := by decide +kernel

theorem type220_ok : memberCheck sents215 "I -4bd 2c 3" [false, true, true] = true := by decide +kernel

theorem class215_ok : class215.check = true :=
  and_ok (by decide +kernel) (all_ok type215_ok (all_ok type216_ok (all_ok type217_ok (all_ok type218_ok (all_ok type219_ok (all_ok type220_ok rfl))))))

end Verif
