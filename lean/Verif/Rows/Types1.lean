import Verif.Data.TypeSentences

/-! Generated by tools/gen_types.py; checked by the kernel. -/

namespace Verif

set_option maxRecDepth 100000

theorem type1_ok : memberCheck sents1 "P 1" [] = true := by decide +kernel

theorem class1_ok : class1.check = true :=
  and_ok (by decide +kernel) (all_ok type1_ok rfl)

theorem type2_ok : memberCheck sents2 "-P 1" [] = true := by decide +kernel

theorem class2_ok : class2.check = true :=
  and_ok (by decide +kernel) (all_ok type2_ok rfl)

theorem type3_ok : memberCheck sents3 "P 2y" [false, true] = true := by decide +kernel

theorem type4_ok : memberCheck sents3 "P 2yb" [false, false] = true := by decide +kernel

theorem type5_ok : memberCheck sents3 "C 2y" [true, true] = true := by decide +kernel

theorem class3_ok : class3.check = true :=
  and_ok (by decide +kernel) (all_ok type3_ok (all_ok type4_ok (all_ok type5_ok rfl)))

theorem type6_ok : memberCheck sents6 "P -2y" [false, true] = true := by decide +kernel

theorem type7_ok : memberCheck sents6 "P -2yc" [false, false] = true := by decide +kernel

theorem type8_ok : memberCheck sents6 "C -2y" [true, true] = true := by decide +kernel

theorem type9_ok : memberCheck sents6 "C -2yc" [true, false] = true := by decide +kernel

theorem class6_ok : class6.check = true :=
  and_ok (by decide +kernel) (all_ok type6_ok (all_ok type7_ok (all_ok type8_ok (all_ok type9_ok rfl))))

theorem type10_ok : memberCheck sents10 "-P 2y" [true, false, true] = true := by decide +kernel

theorem type11_ok : memberCheck sents10 "-P 2yb" [true, false, false] = true := by decide +kernel

theorem type12_ok : memberCheck sents10 "-C 2y" [true, true, true] = true := by decide +kernel

theorem type13_ok : memberCheck sents10 "-P 2yc" [false, false, true] = true := by decide +kernel

theorem type14_ok : memberCheck sents10 "-P 2ybc" [false, false, false] = true := by decide +kernel

theorem type15_ok : memberCheck sents10 "-C 2yc" [false, true, true] = true := by decide +kernel

theorem class10_ok : class10.check = true :=
  and_ok (by decide +kernel) (all_ok type10_ok (all_ok type11_ok (all_ok type12_ok (all_ok type13_ok (all_ok type14_ok (all_ok type15_ok rfl))))))

theorem type16_ok : memberCheck sents16 "P 2 2" [false, true, false, false] = true := by decide +kernel

theorem type17_ok : memberCheck sents16 "P 2c 2" [false, true, true, false] = true := by decide +kernel

theorem type18_ok : memberCheck sents16 "P 2 2ab" [false, false, true, false] = true := by decide +kernel

theorem type19_ok : memberCheck sents16 "P 2ac 2ab" [false, false, false, false] = true := by decide +kernel

theorem type20_ok : memberCheck sents16 "C 2c 2" [true, true, true, true] = true := by decide +kernel

theorem type21_ok : memberCheck sents16 "C 2 2" [true, true, false, true] = true := by decide +kernel

theorem type22_ok : memberCheck sents16 "F 2 2" [true, false, false, true] = true := by decide +kernel

theorem type23_ok : memberCheck sents16 "I 2 2" [true, false, false, false] = true := by decide +kernel

theorem type24_ok : memberCheck sents16 "I 2ac 2ab" [true, false, true, false] = true := by decide +kernel

theorem class16_ok : class16.check = true :=
  and_ok (by decide +kernel) (all_ok type16_ok (all_ok type17_ok (all_ok type18_ok (all_ok type19_ok (all_ok type20_ok (all_ok type21_ok (all_ok type22_ok (all_ok type23_ok (all_ok type24_ok rfl)))))))))

theorem type25_ok : memberCheck sents25 "P 2 -2" [false, true, false, true, false, true, true] = true := by decide +kernel

theorem type26_ok : memberCheck sents25 "P 2c -2" [true, true, false, true, true, true, true] = true := by decide +kernel

theorem type27_ok : memberCheck sents25 "P 2 -2c" [true, false, true, true, true, false, false] = true := by decide +kernel

theorem type28_ok : memberCheck sents25 "P 2 -2a" [true, true, true, true, false, true, true] = true := by decide +kernel

theorem type29_ok : memberCheck sents25 "P 2c -2ac" [true, true, false, true, false, true, false] = true := by decide +kernel

theorem type30_ok : memberCheck sents25 "P 2 -2bc" [true, false, true, true, false, false, false] = true := by decide +kernel

theorem type31_ok : memberCheck sents25 "P 2ac -2" [true, false, false, true, false, true, true] = true := by decide +kernel

theorem type32_ok : memberCheck sents25 "P 2 -2ab" [true, false, true, false, false, true, false] = true := by decide +kernel

theorem type33_ok : memberCheck sents25 "P 2c -2n" [true, false, false, false, false, true, false] = true := by decide +kernel

theorem type34_ok : memberCheck sents25 "P 2 -2n" [true, false, true, false, false, false, false] = true := by decide +kernel

theorem type35_ok : memberCheck sents25 "C 2 -2" [false, false, false, true, false, false, true] = true := by decide +kernel

theorem type36_ok : memberCheck sents25 "C 2c -2" [false, false, false, true, true, false, true] = true := by decide +kernel

theorem type37_ok : memberCheck sents25 "C 2 -2c" [false, false, true, true, true, false, false] = true := by decide +kernel

theorem type38_ok : memberCheck sents25 "A 2 -2" [false, true, false, false, false, true, true] = true := by decide +kernel

theorem type39_ok : memberCheck sents25 "A 2 -2b" [true, true, true, false, true, true, true] = true := by decide +kernel

theorem type40_ok : memberCheck sents25 "A 2 -2a" [false, true, true, false, false, true, true] = true := by decide +kernel

theorem type41_ok : memberCheck sents25 "A 2 -2ab" [true, true, true, false, false, true, false] = true := by decide +kernel

theorem type42_ok : memberCheck sents25 "F 2 -2" [false, false, false, false, false, false, true] = true := by decide +kernel

theorem type43_ok : memberCheck sents25 "F 2 -2yd" [false, false, true, false, false, false, false] = true := by decide +kernel

theorem type44_ok : memberCheck sents25 "I 2 -2" [false, true, false, false, false, false, true] = true := by decide +kernel

theorem type45_ok : memberCheck sents25 "I 2 -2c" [false, true, true, false, true, false, false] = true := by decide +kernel

theorem type46_ok : memberCheck sents25 "I 2 -2a" [false, true, true, false, true, false, true] = true := by decide +kernel

theorem class25_ok : class25.check = true :=
  and_ok (by decide +kernel) (all_ok type25_ok (all_ok type26_ok (all_ok type27_ok (all_ok type28_ok (all_ok type29_ok (all_ok type30_ok (all_ok type31_ok (all_ok type32_ok (all_ok type33_ok (all_ok type34_ok (all_ok type35_ok (all_ok type36_ok (all_ok type37_ok (all_ok type38_ok (all_ok type39_ok (all_ok type40_ok (all_ok type41_ok (all_ok type42_ok (all_ok type43_ok (all_ok type44_ok (all_ok type45_ok (all_ok type46_ok rfl))))))))))))))))))))))

end Verif
