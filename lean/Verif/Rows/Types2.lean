import Verif.Data.TypeSentences

/-! Generated by tools/gen_types.py; checked by the kernel. -/

namespace Verif

set_option maxRecDepth 100000

theorem type47_ok : memberCheck sents47 "-P 2 2" [false, true, false, true, true, true, false, true] = true := by decide +kernel

theorem type48_ok : memberCheck sents47 "P 2 2 -1n" [false, false, false, true, false, false, false, false] = true := by decide +kernel

theorem type49_ok : memberCheck sents47 "-P 2 2c" [false, false, true, true, true, true, false, true] = true := by decide +kernel

theorem type50_ok : memberCheck sents47 "P 2 2 -1ab" [false, false, false, true, false, false, false, true] = true := by decide +kernel

theorem type51_ok : memberCheck sents47 "-P 2a 2a" [true, true, true, true, true, true, false, true] = true := by decide +kernel

theorem type52_ok : memberCheck sents47 "-P 2a 2bc" [true, false, false, true, false, false, false, true] = true := by decide +kernel

theorem type53_ok : memberCheck sents47 "-P 2ac 2" [true, false, true, true, false, true, false, true] = true := by decide +kernel

theorem type54_ok : memberCheck sents47 "-P 2a 2ac" [true, false, true, true, true, false, false, true] = true := by decide +kernel

theorem type55_ok : memberCheck sents47 "-P 2 2ab" [true, true, false, true, false, true, false, true] = true := by decide +kernel

theorem type56_ok : memberCheck sents47 "-P 2ab 2ac" [true, false, false, true, true, false, false, true] = true := by decide +kernel

theorem type57_ok : memberCheck sents47 "-P 2c 2b" [true, true, true, true, false, true, false, true] = true := by decide +kernel

theorem type58_ok : memberCheck sents47 "-P 2 2n" [true, false, false, true, false, true, false, true] = true := by decide +kernel

theorem type59_ok : memberCheck sents47 "P 2 2ab -1ab" [true, true, false, true, true, true, false, true] = true := by decide +kernel

theorem type60_ok : memberCheck sents47 "-P 2n 2ab" [true, false, true, true, false, false, false, true] = true := by decide +kernel

theorem type61_ok : memberCheck sents47 "-P 2ac 2ab" [true, false, true, false, false, false, false, true] = true := by decide +kernel

theorem type62_ok : memberCheck sents47 "-P 2ac 2n" [true, true, false, false, false, true, false, true] = true := by decide +kernel

theorem type63_ok : memberCheck sents47 "-C 2c 2" [true, true, true, false, true, true, false, true] = true := by decide +kernel

theorem type64_ok : memberCheck sents47 "-C 2bc 2" [true, true, true, false, true, false, false, true] = true := by decide +kernel

theorem type65_ok : memberCheck sents47 "-C 2 2" [false, true, false, true, true, true, true, true] = true := by decide +kernel

theorem type66_ok : memberCheck sents47 "-C 2 2c" [false, false, true, true, false, true, true, true] = true := by decide +kernel

theorem type67_ok : memberCheck sents47 "-C 2b 2" [false, true, true, true, true, false, true, true] = true := by decide +kernel

theorem type68_ok : memberCheck sents47 "C 2 2 -1bc" [false, false, true, true, false, false, true, true] = true := by decide +kernel

theorem type69_ok : memberCheck sents47 "-F 2 2" [false, true, false, false, false, false, true, true] = true := by decide +kernel

theorem type70_ok : memberCheck sents47 "F 2 2 -1d" [false, false, false, false, false, false, true, false] = true := by decide +kernel

theorem type71_ok : memberCheck sents47 "-I 2 2" [false, true, false, false, true, false, true, true] = true := by decide +kernel

theorem type72_ok : memberCheck sents47 "-I 2 2c" [false, true, true, false, true, false, true, true] = true := by decide +kernel

theorem type73_ok : memberCheck sents47 "-I 2b 2c" [false, false, true, false, true, false, false, true] = true := by decide +kernel

theorem type74_ok : memberCheck sents47 "-I 2b 2" [false, true, true, false, true, false, false, true] = true := by decide +kernel

theorem class47_ok : class47.check = true :=
  and_ok (by decide +kernel) (all_ok type47_ok (all_ok type48_ok (all_ok type49_ok (all_ok type50_ok (all_ok type51_ok (all_ok type52_ok (all_ok type53_ok (all_ok type54_ok (all_ok type55_ok (all_ok type56_ok (all_ok type57_ok (all_ok type58_ok (all_ok type59_ok (all_ok type60_ok (all_ok type61_ok (all_ok type62_ok (all_ok type63_ok (all_ok type64_ok (all_ok type65_ok (all_ok type66_ok (all_ok type67_ok (all_ok type68_ok (all_ok type69_ok (all_ok type70_ok (all_ok type71_ok (all_ok type72_ok (all_ok type73_ok (all_ok type74_ok rfl))))))))))))))))))))))))))))

theorem type75_ok : memberCheck sents75 "P 4" [true, false, true] = true := by decide +kernel

theorem type76_ok : memberCheck sents75 "P 4w" [false, false, false] = true := by decide +kernel

theorem type77_ok : memberCheck sents75 "P 4c" [true, false, false] = true := by decide +kernel

theorem type78_ok : memberCheck sents75 "P 4cw" [false, false, false] = true := by decide +kernel

theorem type79_ok : memberCheck sents75 "I 4" [true, true, true] = true := by decide +kernel

theorem type80_ok : memberCheck sents75 "I 4bw" [false, true, false] = true := by decide +kernel

theorem class75_ok : class75.check = true :=
  and_ok (by decide +kernel) (all_ok type75_ok (all_ok type76_ok (all_ok type77_ok (all_ok type78_ok (all_ok type79_ok (all_ok type80_ok rfl))))))

theorem type81_ok : memberCheck sents81 "P -4" [false] = true := by decide +kernel

theorem type82_ok : memberCheck sents81 "I -4" [true] = true := by decide +kernel

theorem class81_ok : class81.check = true :=
  and_ok (by decide +kernel) (all_ok type81_ok (all_ok type82_ok rfl))

end Verif
