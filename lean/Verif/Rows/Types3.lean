import Verif.Data.TypeSentences

/-! Generated by tools/gen_types.py; checked by the kernel. -/

namespace Verif

set_option maxRecDepth 100000

theorem type83_ok : memberCheck sents83 "-P 4" [true, false, true] = true := by decide +kernel

theorem type84_ok : memberCheck sents83 "-P 4c" [true, false, false] = true := by decide +kernel

theorem type85_ok : memberCheck sents83 "P 4ab -1ab" [false, false, true] = true := by decide +kernel

theorem type86_ok : memberCheck sents83 "P 4n -1n" [false, false, false] = true := by decide +kernel

theorem type87_ok : memberCheck sents83 "-I 4" [true, true, true] = true := by decide +kernel

theorem type88_ok : memberCheck sents83 "I 4bw -1bw" [false, true, false] = true := by decide +kernel

theorem class83_ok : class83.check = true :=
  and_ok (by decide +kernel) (all_ok type83_ok (all_ok type84_ok (all_ok type85_ok (all_ok type86_ok (all_ok type87_ok (all_ok type88_ok rfl))))))

theorem type89_ok : memberCheck sents89 "P 4 2" [true, true, false, true] = true := by decide +kernel

theorem type90_ok : memberCheck sents89 "P 4ab 2ab" [true, false, false, true] = true := by decide +kernel

theorem type91_ok : memberCheck sents89 "P 4w 2c" [false, true, true, true] = true := by decide +kernel

theorem type92_ok : memberCheck sents89 "P 4abw 2nw" [false, false, true, true] = true := by decide +kernel

theorem type93_ok : memberCheck sents89 "P 4c 2" [true, true, true, true] = true := by decide +kernel

theorem type94_ok : memberCheck sents89 "P 4n 2n" [true, false, true, true] = true := by decide +kernel

theorem type95_ok : memberCheck sents89 "P 4cw 2c" [false, true, true, true] = true := by decide +kernel

theorem type96_ok : memberCheck sents89 "P 4nw 2abw" [false, false, true, true] = true := by decide +kernel

theorem type97_ok : memberCheck sents89 "I 4 2" [true, true, false, false] = true := by decide +kernel

theorem type98_ok : memberCheck sents89 "I 4bw 2bw" [false, true, false, false] = true := by decide +kernel

theorem class89_ok : class89.check = true :=
  and_ok (by decide +kernel) (all_ok type89_ok (all_ok type90_ok (all_ok type91_ok (all_ok type92_ok (all_ok type93_ok (all_ok type94_ok (all_ok type95_ok (all_ok type96_ok (all_ok type97_ok (all_ok type98_ok rfl))))))))))

theorem type99_ok : memberCheck sents99 "P 4 -2" [true, false, true, true] = true := by decide +kernel

theorem type100_ok : memberCheck sents99 "P 4 -2ab" [true, true, false, true] = true := by decide +kernel

theorem type101_ok : memberCheck sents99 "P 4c -2c" [false, true, true, true] = true := by decide +kernel

theorem type102_ok : memberCheck sents99 "P 4n -2n" [false, true, false, true] = true := by decide +kernel

theorem type103_ok : memberCheck sents99 "P 4 -2c" [true, true, true, false] = true := by decide +kernel

theorem type104_ok : memberCheck sents99 "P 4 -2n" [true, true, false, false] = true := by decide +kernel

theorem type105_ok : memberCheck sents99 "P 4c -2" [false, false, true, true] = true := by decide +kernel

theorem type106_ok : memberCheck sents99 "P 4c -2ab" [false, true, false, false] = true := by decide +kernel

theorem type107_ok : memberCheck sents99 "I 4 -2" [true, false, false, true] = true := by decide +kernel

theorem type108_ok : memberCheck sents99 "I 4 -2c" [true, false, false, false] = true := by decide +kernel

theorem type109_ok : memberCheck sents99 "I 4bw -2" [false, false, false, true] = true := by decide +kernel

theorem type110_ok : memberCheck sents99 "I 4bw -2c" [false, false, false, false] = true := by decide +kernel

theorem class99_ok : class99.check = true :=
  and_ok (by decide +kernel) (all_ok type99_ok (all_ok type100_ok (all_ok type101_ok (all_ok type102_ok (all_ok type103_ok (all_ok type104_ok (all_ok type105_ok (all_ok type106_ok (all_ok type107_ok (all_ok type108_ok (all_ok type109_ok (all_ok type110_ok rfl))))))))))))

theorem type111_ok : memberCheck sents111 "P -4 2" [false, true, true, false, false] = true := by decide +kernel

theorem type112_ok : memberCheck sents111 "P -4 2c" [false, false, true, false, false] = true := by decide +kernel

theorem type113_ok : memberCheck sents111 "P -4 2ab" [false, true, true, true, false] = true := by decide +kernel

theorem type114_ok : memberCheck sents111 "P -4 2n" [false, false, true, true, false] = true := by decide +kernel

theorem type115_ok : memberCheck sents111 "P -4 -2" [true, true, true, false, false] = true := by decide +kernel

theorem type116_ok : memberCheck sents111 "P -4 -2c" [true, false, true, false, false] = true := by decide +kernel

theorem type117_ok : memberCheck sents111 "P -4 -2ab" [true, false, false, false, true] = true := by decide +kernel

theorem type118_ok : memberCheck sents111 "P -4 -2n" [true, false, false, false, false] = true := by decide +kernel

theorem type119_ok : memberCheck sents111 "I -4 -2" [true, true, false, false, false] = true := by decide +kernel

theorem type120_ok : memberCheck sents111 "I -4 -2c" [true, true, false, false, true] = true := by decide +kernel

theorem type121_ok : memberCheck sents111 "I -4 2" [false, true, false, false, false] = true := by decide +kernel

theorem type122_ok : memberCheck sents111 "I -4 2bw" [false, false, false, false, false] = true := by decide +kernel

theorem class111_ok : class111.check = true :=
  and_ok (by decide +kernel) (all_ok type111_ok (all_ok type112_ok (all_ok type113_ok (all_ok type114_ok (all_ok type115_ok (all_ok type116_ok (all_ok type117_ok (all_ok type118_ok (all_ok type119_ok (all_ok type120_ok (all_ok type121_ok (all_ok type122_ok rfl))))))))))))

end Verif
