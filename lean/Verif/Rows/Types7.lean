import Verif.Data.TypeSentences

/-! Generated by tools/gen_types.py; checked by the kernel. -/

namespace Verif

set_option maxRecDepth 100000

theorem type221_ok : memberCheck sents221 "-P 4 2 3" [true, true, true, false] = true := by decide +kernel

theorem type222_ok : memberCheck sents221 "P 4 2 3 -1n" [true, true, false, false] = true := by decide +kernel

theorem type223_ok : memberCheck sents221 "-P 4n 2 3" [false, true, false, false] = true := by decide +kernel

theorem type224_ok : memberCheck sents221 "P 4n 2 3 -1n" [false, true, true, false] = true := by decide +kernel

theorem type225_ok : memberCheck sents221 "-F 4 2 3" [true, false, true, false] = true := by decide +kernel

theorem type226_ok : memberCheck sents221 "-F 4c 2 3" [true, false, false, false] = true := by decide +kernel

theorem type227_ok : memberCheck sents221 "F 4d 2 3 -1d" [false, false, true, false] = true := by decide +kernel

theorem type228_ok : memberCheck sents221 "F 4d 2 3 -1cd" [false, false, false, false] = true := by decide +kernel

theorem type229_ok : memberCheck sents221 "-I 4 2 3" [true, false, true, true] = true := by decide +kernel

theorem type230_ok : memberCheck sents221 "-I 4bd 2c 3" [false, false, false, true] = true := by decide +kernel

theorem class221_ok : class221.check = true :=
  and_ok (by decide +kernel) (all_ok type221_ok (all_ok type222_ok (all_ok type223_ok (all_ok type224_ok (all_ok type225_ok (all_ok type226_ok (all_ok type227_ok (all_ok type228_ok (all_ok type229_ok (all_ok type230_ok rfl))))))))))

end Verif
