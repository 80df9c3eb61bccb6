import Verif.Proofs.NameCheck

/-! Generated by tools/gen_names.py; checked by the kernel. -/

namespace Verif.HM

/-- Rows with their names. -/
def names09 : List NameRow := [
  ⟨"-F 4c 2 3", "F m -3 c", true, 17596485206016, 17181966336⟩,
  ⟨"F 4d 2 3 -1d", "F d -3 m:1", true, 17609368010752, 4299161600⟩,
  ⟨"-F 4vw 2vw 3", "F d -3 m:2", true, 17609368010752, 4299161600⟩,
  ⟨"F 4d 2 3 -1cd", "F d -3 c:1", true, 17596483108864, 17184063488⟩,
  ⟨"-F 4cvw 2vw 3", "F d -3 c:2", true, 17596483108864, 17184063488⟩]

theorem names09_ok : names09.all NameRow.check = true := by decide +kernel

end Verif.HM
