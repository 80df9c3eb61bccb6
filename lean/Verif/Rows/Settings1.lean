import Verif.Proofs.SettingCheck

/-! Generated by tools/gen_settings.py; checked by the kernel. -/

namespace Verif

/-- Rows of the full table in a derived setting. -/
def settingRows1 : List SettingRow := [
  ⟨3, 2, 15, "P 2", "P 2y"⟩,
  ⟨4, 2, 16, "P 2x", "P 2y"⟩,
  ⟨6, 5, 15, "P 2c", "P 2yb"⟩,
  ⟨7, 5, 16, "P 2xa", "P 2yb"⟩,
  ⟨9, 8, 17, "A 2y", "C 2y"⟩,
  ⟨10, 8, 18, "I 2y", "C 2y"⟩,
  ⟨11, 8, 19, "A 2", "C 2y"⟩,
  ⟨12, 8, 20, "B 2", "C 2y"⟩,
  ⟨13, 8, 21, "I 2", "C 2y"⟩,
  ⟨14, 8, 22, "B 2x", "C 2y"⟩,
  ⟨15, 8, 23, "C 2x", "C 2y"⟩,
  ⟨16, 8, 24, "I 2x", "C 2y"⟩,
  ⟨18, 17, 15, "P -2", "P -2y"⟩,
  ⟨19, 17, 16, "P -2x", "P -2y"⟩,
  ⟨21, 20, 17, "P -2yac", "P -2yc"⟩,
  ⟨22, 20, 18, "P -2ya", "P -2yc"⟩,
  ⟨23, 20, 19, "P -2a", "P -2yc"⟩,
  ⟨24, 20, 20, "P -2ab", "P -2yc"⟩,
  ⟨25, 20, 21, "P -2b", "P -2yc"⟩,
  ⟨26, 20, 22, "P -2xb", "P -2yc"⟩,
  ⟨27, 20, 23, "P -2xbc", "P -2yc"⟩,
  ⟨28, 20, 24, "P -2xc", "P -2yc"⟩,
  ⟨30, 29, 17, "A -2y", "C -2y"⟩,
  ⟨31, 29, 18, "I -2y", "C -2y"⟩,
  ⟨32, 29, 19, "A -2", "C -2y"⟩,
  ⟨33, 29, 20, "B -2", "C -2y"⟩,
  ⟨34, 29, 21, "I -2", "C -2y"⟩,
  ⟨35, 29, 22, "B -2x", "C -2y"⟩,
  ⟨36, 29, 23, "C -2x", "C -2y"⟩,
  ⟨37, 29, 24, "I -2x", "C -2y"⟩,
  ⟨39, 38, 17, "A -2yac", "C -2yc"⟩,
  ⟨40, 38, 18, "I -2ya", "C -2yc"⟩,
  ⟨41, 38, 25, "A -2ya", "C -2yc"⟩,
  ⟨42, 38, 26, "C -2ybc", "C -2yc"⟩,
  ⟨43, 38, 27, "I -2yc", "C -2yc"⟩,
  ⟨44, 38, 19, "A -2a", "C -2yc"⟩,
  ⟨45, 38, 20, "B -2bc", "C -2yc"⟩,
  ⟨46, 38, 21, "I -2b", "C -2yc"⟩,
  ⟨47, 38, 28, "B -2b", "C -2yc"⟩,
  ⟨48, 38, 29, "A -2ac", "C -2yc"⟩,
  ⟨49, 38, 30, "I -2a", "C -2yc"⟩,
  ⟨50, 38, 22, "B -2xb", "C -2yc"⟩,
  ⟨51, 38, 23, "C -2xbc", "C -2yc"⟩,
  ⟨52, 38, 24, "I -2xc", "C -2yc"⟩,
  ⟨53, 38, 31, "C -2xc", "C -2yc"⟩,
  ⟨54, 38, 32, "B -2xbc", "C -2yc"⟩,
  ⟨55, 38, 33, "I -2xb", "C -2yc"⟩,
  ⟨57, 56, 15, "-P 2", "-P 2y"⟩,
  ⟨58, 56, 16, "-P 2x", "-P 2y"⟩,
  ⟨60, 59, 15, "-P 2c", "-P 2yb"⟩,
  ⟨61, 59, 16, "-P 2xa", "-P 2yb"⟩,
  ⟨63, 62, 17, "-A 2y", "-C 2y"⟩,
  ⟨64, 62, 18, "-I 2y", "-C 2y"⟩,
  ⟨65, 62, 19, "-A 2", "-C 2y"⟩,
  ⟨66, 62, 20, "-B 2", "-C 2y"⟩,
  ⟨67, 62, 21, "-I 2", "-C 2y"⟩,
  ⟨68, 62, 22, "-B 2x", "-C 2y"⟩,
  ⟨69, 62, 23, "-C 2x", "-C 2y"⟩,
  ⟨70, 62, 24, "-I 2x", "-C 2y"⟩,
  ⟨72, 71, 17, "-P 2yac", "-P 2yc"⟩,
  ⟨73, 71, 18, "-P 2ya", "-P 2yc"⟩,
  ⟨74, 71, 19, "-P 2a", "-P 2yc"⟩,
  ⟨75, 71, 20, "-P 2ab", "-P 2yc"⟩,
  ⟨76, 71, 21, "-P 2b", "-P 2yc"⟩,
  ⟨77, 71, 22, "-P 2xb", "-P 2yc"⟩,
  ⟨78, 71, 23, "-P 2xbc", "-P 2yc"⟩,
  ⟨79, 71, 24, "-P 2xc", "-P 2yc"⟩,
  ⟨81, 80, 17, "-P 2yn", "-P 2ybc"⟩,
  ⟨82, 80, 18, "-P 2yab", "-P 2ybc"⟩,
  ⟨83, 80, 19, "-P 2ac", "-P 2ybc"⟩,
  ⟨84, 80, 20, "-P 2n", "-P 2ybc"⟩,
  ⟨85, 80, 21, "-P 2bc", "-P 2ybc"⟩,
  ⟨86, 80, 22, "-P 2xab", "-P 2ybc"⟩,
  ⟨87, 80, 23, "-P 2xn", "-P 2ybc"⟩,
  ⟨88, 80, 24, "-P 2xac", "-P 2ybc"⟩,
  ⟨90, 89, 17, "-A 2yac", "-C 2yc"⟩,
  ⟨91, 89, 18, "-I 2ya", "-C 2yc"⟩,
  ⟨92, 89, 25, "-A 2ya", "-C 2yc"⟩,
  ⟨93, 89, 26, "-C 2ybc", "-C 2yc"⟩,
  ⟨94, 89, 27, "-I 2yc", "-C 2yc"⟩,
  ⟨95, 89, 19, "-A 2a", "-C 2yc"⟩,
  ⟨96, 89, 20, "-B 2bc", "-C 2yc"⟩,
  ⟨97, 89, 21, "-I 2b", "-C 2yc"⟩,
  ⟨98, 89, 28, "-B 2b", "-C 2yc"⟩,
  ⟨99, 89, 29, "-A 2ac", "-C 2yc"⟩,
  ⟨100, 89, 30, "-I 2a", "-C 2yc"⟩,
  ⟨101, 89, 22, "-B 2xb", "-C 2yc"⟩,
  ⟨102, 89, 23, "-C 2xbc", "-C 2yc"⟩,
  ⟨103, 89, 24, "-I 2xc", "-C 2yc"⟩,
  ⟨104, 89, 31, "-C 2xc", "-C 2yc"⟩,
  ⟨105, 89, 32, "-B 2xbc", "-C 2yc"⟩,
  ⟨106, 89, 33, "-I 2xb", "-C 2yc"⟩]

theorem settingRows1_ok : settingRows1.all SettingRow.check = true := by decide +kernel

end Verif
