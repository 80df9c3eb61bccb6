import Verif.Data.TypeSentences

/-! Generated by tools/gen_types.py; checked by the kernel. -/

namespace Verif

set_option maxRecDepth 100000

theorem type168_ok : memberCheck sents168 "P 6" [true, true] = true := by decide +kernel

theorem type169_ok : memberCheck sents168 "P 61" [false, false] = true := by decide +kernel

theorem type170_ok : memberCheck sents168 "P 65" [false, false] = true := by decide +kernel

theorem type171_ok : memberCheck sents168 "P 62" [true, false] = true := by decide +kernel

theorem type172_ok : memberCheck sents168 "P 64" [true, false] = true := by decide +kernel

theorem type173_ok : memberCheck sents168 "P 6c" [false, true] = true := by decide +kernel

theorem class168_ok : class168.check = true :=
  and_ok (by decide +kernel) (all_ok type168_ok (all_ok type169_ok (all_ok type170_ok (all_ok type171_ok (all_ok type172_ok (all_ok type173_ok rfl))))))

theorem type174_ok : memberCheck sents174 "P -6" [] = true := by decide +kernel

theorem class174_ok : class174.check = true :=
  and_ok (by decide +kernel) (all_ok type174_ok rfl)

theorem type175_ok : memberCheck sents175 "-P 6" [true] = true := by decide +kernel

theorem type176_ok : memberCheck sents175 "-P 6c" [false] = true := by decide +kernel

theorem class175_ok : class175.check = true :=
  and_ok (by decide +kernel) (all_ok type175_ok (all_ok type176_ok rfl))

theorem type177_ok : memberCheck sents177 "P 6 2" [false, true] = true := by decide +kernel

theorem type178_ok : memberCheck sents177 "P 61 2 (0 0 -1)" [true, false] = true := by decide +kernel

theorem type179_ok : memberCheck sents177 "P 65 2 (0 0 1)" [true, false] = true := by decide +kernel

theorem type180_ok : memberCheck sents177 "P 62 2c (0 0 1)" [false, false] = true := by decide +kernel

theorem type181_ok : memberCheck sents177 "P 64 2c (0 0 -1)" [false, false] = true := by decide +kernel

theorem type182_ok : memberCheck sents177 "P 6c 2c" [true, true] = true := by decide +kernel

theorem class177_ok : class177.check = true :=
  and_ok (by decide +kernel) (all_ok type177_ok (all_ok type178_ok (all_ok type179_ok (all_ok type180_ok (all_ok type181_ok (all_ok type182_ok rfl))))))

theorem type183_ok : memberCheck sents183 "P 6 -2" [true, true] = true := by decide +kernel

theorem type184_ok : memberCheck sents183 "P 6 -2c" [true, false] = true := by decide +kernel

theorem type185_ok : memberCheck sents183 "P 6c -2" [false, true] = true := by decide +kernel

theorem type186_ok : memberCheck sents183 "P 6c -2c" [false, false] = true := by decide +kernel

theorem class183_ok : class183.check = true :=
  and_ok (by decide +kernel) (all_ok type183_ok (all_ok type184_ok (all_ok type185_ok (all_ok type186_ok rfl))))

theorem type187_ok : memberCheck sents187 "P -6 2" [false, false] = true := by decide +kernel

theorem type188_ok : memberCheck sents187 "P -6c 2" [true, false] = true := by decide +kernel

theorem type189_ok : memberCheck sents187 "P -6 -2" [false, true] = true := by decide +kernel

theorem type190_ok : memberCheck sents187 "P -6c -2c" [true, true] = true := by decide +kernel

theorem class187_ok : class187.check = true :=
  and_ok (by decide +kernel) (all_ok type187_ok (all_ok type188_ok (all_ok type189_ok (all_ok type190_ok rfl))))

theorem type191_ok : memberCheck sents191 "-P 6 2" [false, true] = true := by decide +kernel

theorem type192_ok : memberCheck sents191 "-P 6 2c" [false, false] = true := by decide +kernel

theorem type193_ok : memberCheck sents191 "-P 6c 2" [true, true] = true := by decide +kernel

theorem type194_ok : memberCheck sents191 "-P 6c 2c" [true, false] = true := by decide +kernel

theorem class191_ok : class191.check = true :=
  and_ok (by decide +kernel) (all_ok type191_ok (all_ok type192_ok (all_ok type193_ok (all_ok type194_ok rfl))))

theorem type195_ok : memberCheck sents195 "P 2 2 3" [false, true, false] = true := by decide +kernel

theorem type196_ok : memberCheck sents195 "F 2 2 3" [true, true, true] = true := by decide +kernel

theorem type197_ok : memberCheck sents195 "I 2 2 3" [true, true, false] = true := by decide +kernel

theorem type198_ok : memberCheck sents195 "P 2ac 2ab 3" [false, false, false] = true := by decide +kernel

theorem type199_ok : memberCheck sents195 "I 2b 2c 3" [true, false, false] = true := by decide +kernel

theorem class195_ok : class195.check = true :=
  and_ok (by decide +kernel) (all_ok type195_ok (all_ok type196_ok (all_ok type197_ok (all_ok type198_ok (all_ok type199_ok rfl)))))

theorem type200_ok : memberCheck sents200 "-P 2 2 3" [false, true, true] = true := by decide +kernel

theorem type201_ok : memberCheck sents200 "P 2 2 3 -1n" [false, false, true] = true := by decide +kernel

theorem type202_ok : memberCheck sents200 "-F 2 2 3" [true, true, true] = true := by decide +kernel

theorem type203_ok : memberCheck sents200 "F 2 2 3 -1d" [true, false, true] = true := by decide +kernel

theorem type204_ok : memberCheck sents200 "-I 2 2 3" [true, true, false] = true := by decide +kernel

theorem type205_ok : memberCheck sents200 "-P 2ac 2ab 3" [false, false, false] = true := by decide +kernel

theorem type206_ok : memberCheck sents200 "-I 2b 2c 3" [true, false, false] = true := by decide +kernel

theorem class200_ok : class200.check = true :=
  and_ok (by decide +kernel) (all_ok type200_ok (all_ok type201_ok (all_ok type202_ok (all_ok type203_ok (all_ok type204_ok (all_ok type205_ok (all_ok type206_ok rfl)))))))

end Verif
