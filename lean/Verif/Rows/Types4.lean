import Verif.Data.TypeSentences

/-! Generated by tools/gen_types.py; checked by the kernel. -/

namespace Verif

set_option maxRecDepth 100000

theorem type123_ok : memberCheck sents123 "-P 4 2" [true, true, true, true, false] = true := by decide +kernel

theorem type124_ok : memberCheck sents123 "-P 4 2c" [true, true, false, true, false] = true := by decide +kernel

theorem type125_ok : memberCheck sents123 "P 4 2 -1ab" [true, false, true, true, true] = true := by decide +kernel

theorem type126_ok : memberCheck sents123 "P 4 2 -1n" [true, false, false, true, false] = true := by decide +kernel

theorem type127_ok : memberCheck sents123 "-P 4 2ab" [true, true, true, false, true] = true := by decide +kernel

theorem type128_ok : memberCheck sents123 "-P 4 2n" [true, true, false, false, false] = true := by decide +kernel

theorem type129_ok : memberCheck sents123 "P 4ab 2ab -1ab" [true, true, true, false, false] = true := by decide +kernel

theorem type130_ok : memberCheck sents123 "P 4ab 2n -1ab" [true, false, false, false, false] = true := by decide +kernel

theorem type131_ok : memberCheck sents123 "-P 4c 2" [false, true, false, true, true] = true := by decide +kernel

theorem type132_ok : memberCheck sents123 "-P 4c 2c" [false, true, true, true, true] = true := by decide +kernel

theorem type133_ok : memberCheck sents123 "P 4n 2c -1n" [false, false, false, true, false] = true := by decide +kernel

theorem type134_ok : memberCheck sents123 "P 4n 2 -1n" [false, false, true, true, true] = true := by decide +kernel

theorem type135_ok : memberCheck sents123 "-P 4c 2ab" [false, true, false, false, false] = true := by decide +kernel

theorem type136_ok : memberCheck sents123 "-P 4n 2n" [false, true, true, false, true] = true := by decide +kernel

theorem type137_ok : memberCheck sents123 "P 4n 2n -1n" [false, true, false, false, true] = true := by decide +kernel

theorem type138_ok : memberCheck sents123 "P 4n 2ab -1n" [false, false, true, false, true] = true := by decide +kernel

theorem type139_ok : memberCheck sents123 "-I 4 2" [true, false, true, false, false] = true := by decide +kernel

theorem type140_ok : memberCheck sents123 "-I 4 2c" [true, false, true, false, true] = true := by decide +kernel

theorem type141_ok : memberCheck sents123 "I 4bw 2bw -1bw" [false, false, true, false, false] = true := by decide +kernel

theorem type142_ok : memberCheck sents123 "I 4bw 2aw -1bw" [false, false, false, false, true] = true := by decide +kernel

theorem class123_ok : class123.check = true :=
  and_ok (by decide +kernel) (all_ok type123_ok (all_ok type124_ok (all_ok type125_ok (all_ok type126_ok (all_ok type127_ok (all_ok type128_ok (all_ok type129_ok (all_ok type130_ok (all_ok type131_ok (all_ok type132_ok (all_ok type133_ok (all_ok type134_ok (all_ok type135_ok (all_ok type136_ok (all_ok type137_ok (all_ok type138_ok (all_ok type139_ok (all_ok type140_ok (all_ok type141_ok (all_ok type142_ok rfl))))))))))))))))))))

theorem type143_ok : memberCheck sents143 "P 3" [true, false] = true := by decide +kernel

theorem type144_ok : memberCheck sents143 "P 31" [false, false] = true := by decide +kernel

theorem type145_ok : memberCheck sents143 "P 32" [false, false] = true := by decide +kernel

theorem type146_ok : memberCheck sents143 "R 3" [true, true] = true := by decide +kernel

theorem class143_ok : class143.check = true :=
  and_ok (by decide +kernel) (all_ok type143_ok (all_ok type144_ok (all_ok type145_ok (all_ok type146_ok rfl))))

theorem type147_ok : memberCheck sents147 "-P 3" [false] = true := by decide +kernel

theorem type148_ok : memberCheck sents147 "-R 3" [true] = true := by decide +kernel

theorem class147_ok : class147.check = true :=
  and_ok (by decide +kernel) (all_ok type147_ok (all_ok type148_ok rfl))

theorem type149_ok : memberCheck sents149 "P 3 2" [true, false, false] = true := by decide +kernel

theorem type150_ok : memberCheck sents149 "P 3 2\"" [true, true, false] = true := by decide +kernel

theorem type151_ok : memberCheck sents149 "P 31 2c (0 0 1)" [false, false, false] = true := by decide +kernel

theorem type152_ok : memberCheck sents149 "P 31 2\"" [false, true, false] = true := by decide +kernel

theorem type153_ok : memberCheck sents149 "P 32 2c (0 0 -1)" [false, false, false] = true := by decide +kernel

theorem type154_ok : memberCheck sents149 "P 32 2\"" [false, true, false] = true := by decide +kernel

theorem type155_ok : memberCheck sents149 "R 3 2\"" [true, true, true] = true := by decide +kernel

theorem class149_ok : class149.check = true :=
  and_ok (by decide +kernel) (all_ok type149_ok (all_ok type150_ok (all_ok type151_ok (all_ok type152_ok (all_ok type153_ok (all_ok type154_ok (all_ok type155_ok rfl)))))))

theorem type156_ok : memberCheck sents156 "P 3 -2\"" [true, false, false] = true := by decide +kernel

theorem type157_ok : memberCheck sents156 "P 3 -2" [true, true, true] = true := by decide +kernel

theorem type158_ok : memberCheck sents156 "P 3 -2\"c" [false, false, false] = true := by decide +kernel

theorem type159_ok : memberCheck sents156 "P 3 -2c" [false, true, true] = true := by decide +kernel

theorem type160_ok : memberCheck sents156 "R 3 -2\"" [true, true, false] = true := by decide +kernel

theorem type161_ok : memberCheck sents156 "R 3 -2\"c" [false, true, false] = true := by decide +kernel

theorem class156_ok : class156.check = true :=
  and_ok (by decide +kernel) (all_ok type156_ok (all_ok type157_ok (all_ok type158_ok (all_ok type159_ok (all_ok type160_ok (all_ok type161_ok rfl))))))

theorem type162_ok : memberCheck sents162 "-P 3 2" [true, false, true] = true := by decide +kernel

theorem type163_ok : memberCheck sents162 "-P 3 2c" [false, false, true] = true := by decide +kernel

theorem type164_ok : memberCheck sents162 "-P 3 2\"" [true, true, false] = true := by decide +kernel

theorem type165_ok : memberCheck sents162 "-P 3 2\"c" [false, true, false] = true := by decide +kernel

theorem type166_ok : memberCheck sents162 "-R 3 2\"" [true, true, true] = true := by decide +kernel

theorem type167_ok : memberCheck sents162 "-R 3 2\"c" [false, true, true] = true := by decide +kernel

theorem class162_ok : class162.check = true :=
  and_ok (by decide +kernel) (all_ok type162_ok (all_ok type163_ok (all_ok type164_ok (all_ok type165_ok (all_ok type166_ok (all_ok type167_ok rfl))))))

end Verif
