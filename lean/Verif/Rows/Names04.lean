import Verif.Proofs.NameCheck

/-! Generated by tools/gen_names.py; checked by the kernel. -/

namespace Verif.HM

/-- Rows with their names. -/
def names04 : List NameRow := [
  ⟨"P 4ab 2ab -1ab", "P 4/n m m:1", true, 2216211513376, 279177068672⟩,
  ⟨"-P 4a 2a", "P 4/n m m:2", true, 2216211513376, 279177068672⟩,
  ⟨"P 4ab 2n -1ab", "P 4/n c c:1", true, 554059169824, 4415230574720⟩,
  ⟨"-P 4a 2ac", "P 4/n c c:2", true, 554059169824, 4415230574720⟩,
  ⟨"-P 4c 2", "P 42/m m c", true, 2203322417280, 292066164768⟩,
  ⟨"-P 4c 2c", "P 42/m c m", true, 566939877504, 4402349867040⟩,
  ⟨"P 4n 2c -1n", "P 42/n b c:1", true, 279181262976, 2216207319072⟩,
  ⟨"-P 4ac 2b", "P 42/n b c:2", true, 279181262976, 2216207319072⟩,
  ⟨"P 4n 2 -1n", "P 42/n n m:1", true, 4415234769024, 554054975520⟩,
  ⟨"-P 4ac 2bc", "P 42/n n m:2", true, 4415234769024, 554054975520⟩,
  ⟨"-P 4c 2ab", "P 42/m b c", true, 279177068672, 2216211513376⟩,
  ⟨"-P 4n 2n", "P 42/m n m", true, 4415230574720, 554059169824⟩,
  ⟨"P 4n 2n -1n", "P 42/n m c:1", true, 2203326611584, 292061970464⟩,
  ⟨"-P 4ac 2a", "P 42/n m c:2", true, 2203326611584, 292061970464⟩,
  ⟨"P 4n 2ab -1n", "P 42/n c m:1", true, 566944071808, 4402345672736⟩,
  ⟨"-P 4ac 2ac", "P 42/n c m:2", true, 566944071808, 4402345672736⟩,
  ⟨"-I 4 2", "I 4/m m m", true, 2216207319072, 549755813952⟩,
  ⟨"-I 4 2c", "I 4/m c m", true, 566939877408, 2199023255616⟩,
  ⟨"I 4bw 2bw -1bw", "I 41/a m d:1", true, 2207613714496, 549755813920⟩,
  ⟨"-I 4bd 2", "I 41/a m d:2", true, 2207613714496, 549755813920⟩,
  ⟨"I 4bw 2aw -1bw", "I 41/a c d:1", true, 558346272832, 2199023255584⟩,
  ⟨"-I 4bd 2c", "I 41/a c d:2", true, 558346272832, 2199023255584⟩,
  ⟨"P 3", "P 3", true, 4, 24⟩,
  ⟨"P 31", "P 31", true, 8, 20⟩,
  ⟨"P 32", "P 32", true, 16, 12⟩,
  ⟨"R 3", "R 3:H", true, 4, 0⟩,
  ⟨"P 3*", "R 3:R", true, 281474976710656, 0⟩,
  ⟨"-P 3", "P -3", true, 65536, 0⟩,
  ⟨"-R 3", "R -3:H", true, 65536, 0⟩,
  ⟨"-P 3*", "R -3:R", true, 562949953421312, 0⟩,
  ⟨"P 3 2", "P 3 1 2", true, 2147483652, 24⟩,
  ⟨"P 3 2\"", "P 3 2 1", true, 68719476740, 24⟩,
  ⟨"P 31 2c (0 0 1)", "P 31 1 2", true, 2147483656, 20⟩,
  ⟨"P 31 2\"", "P 31 2 1", true, 68719476744, 20⟩,
  ⟨"P 32 2c (0 0 -1)", "P 32 1 2", true, 2147483664, 12⟩,
  ⟨"P 32 2\"", "P 32 2 1", true, 68719476752, 12⟩,
  ⟨"R 3 2\"", "R 3 2:H", true, 68719476740, 0⟩,
  ⟨"P 3* 2", "R 3 2:R", true, 316659348799488, 0⟩,
  ⟨"P 3 -2\"", "P 3 m 1", true, 2199023255556, 549755813888⟩,
  ⟨"P 3 -2", "P 3 1 m", true, 17179869188, 4294967296⟩,
  ⟨"P 3 -2\"c", "P 3 c 1", true, 549755813892, 2199023255552⟩,
  ⟨"P 3 -2c", "P 3 1 c", true, 4294967300, 17179869184⟩,
  ⟨"R 3 -2\"", "R 3 m:H", true, 2199023255556, 549755813888⟩,
  ⟨"P 3* -2", "R 3 m:R", true, 422212465065984, 70368744177664⟩,
  ⟨"R 3 -2\"c", "R 3 c:H", true, 549755813892, 2199023255552⟩,
  ⟨"P 3* -2n", "R 3 c:R", true, 351843720888320, 140737488355328⟩,
  ⟨"-P 3 2", "P -3 1 m", true, 17179934720, 4294967296⟩,
  ⟨"-P 3 2c", "P -3 1 c", true, 4295032832, 17179869184⟩]

theorem names04_ok : names04.all NameRow.check = true := by decide +kernel

end Verif.HM
