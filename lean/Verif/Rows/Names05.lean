import Verif.Proofs.NameCheck

/-! Generated by tools/gen_names.py; checked by the kernel. -/

namespace Verif.HM

/-- Rows with their names. -/
def names05 : List NameRow := [
  ⟨"-P 3 2\"", "P -3 m 1", true, 2199023321088, 549755813888⟩,
  ⟨"-P 3 2\"c", "P -3 c 1", true, 549755879424, 2199023255552⟩,
  ⟨"-R 3 2\"", "R -3 m:H", true, 2199023321088, 549755813888⟩,
  ⟨"-P 3* 2", "R -3 m:R", true, 703687441776640, 70368744177664⟩,
  ⟨"-R 3 2\"c", "R -3 c:H", true, 549755879424, 2199023255552⟩,
  ⟨"-P 3* 2n", "R -3 c:R", true, 633318697598976, 140737488355328⟩,
  ⟨"P 6", "P 6", true, 512, 31744⟩,
  ⟨"P 61", "P 61", true, 1024, 31232⟩,
  ⟨"P 65", "P 65", true, 16384, 15872⟩,
  ⟨"P 62", "P 62", true, 2048, 30208⟩,
  ⟨"P 64", "P 64", true, 8192, 24064⟩,
  ⟨"P 6c", "P 63", true, 4096, 28160⟩,
  ⟨"P -6", "P -6", true, 262144, 0⟩,
  ⟨"-P 6", "P 6/m", true, 4194816, 4096⟩,
  ⟨"-P 6c", "P 63/m", true, 4198400, 512⟩,
  ⟨"P 6 2", "P 6 2 2", true, 70866960896, 31744⟩,
  ⟨"P 61 2 (0 0 -1)", "P 61 2 2", true, 70866961408, 31232⟩,
  ⟨"P 65 2 (0 0 1)", "P 65 2 2", true, 70866976768, 15872⟩,
  ⟨"P 62 2c (0 0 1)", "P 62 2 2", true, 70866962432, 30208⟩,
  ⟨"P 64 2c (0 0 -1)", "P 64 2 2", true, 70866968576, 24064⟩,
  ⟨"P 6c 2c", "P 63 2 2", true, 70866964480, 28160⟩,
  ⟨"P 6 -2", "P 6 m m", true, 2216203125248, 4294971392⟩,
  ⟨"P 6 -2c", "P 6 c c", true, 554050781696, 17179873280⟩,
  ⟨"P 6c -2", "P 63 c m", true, 566935687168, 4294967808⟩,
  ⟨"P 6c -2c", "P 63 m c", true, 2203318226944, 17179869696⟩,
  ⟨"P -6 2", "P -6 m 2", true, 2201171001344, 549755813888⟩,
  ⟨"P -6c 2", "P -6 c 2", true, 551903559680, 2199023255552⟩,
  ⟨"P -6 -2", "P -6 2 m", true, 85899608064, 4294967296⟩,
  ⟨"P -6c -2c", "P -6 2 c", true, 73014706176, 17179869184⟩,
  ⟨"-P 6 2", "P 6/m m m", true, 2216207319552, 4294971392⟩,
  ⟨"-P 6 2c", "P 6/m c c", true, 554054976000, 17179873280⟩,
  ⟨"-P 6c 2", "P 63/m c m", true, 566939881472, 4294967808⟩,
  ⟨"-P 6c 2c", "P 63/m m c", true, 2203322421248, 17179869696⟩,
  ⟨"P 2 2 3", "P 2 3", true, 8796093022209, 2⟩,
  ⟨"F 2 2 3", "F 2 3", true, 8796093022209, 0⟩,
  ⟨"I 2 2 3", "I 2 3", true, 8796093022209, 0⟩,
  ⟨"P 2ac 2ab 3", "P 21 3", true, 8796093022210, 1⟩,
  ⟨"I 2b 2c 3", "I 21 3", true, 8796093022210, 0⟩,
  ⟨"-P 2 2 3", "P m -3", true, 17592190238720, 8912896⟩,
  ⟨"P 2 2 3 -1n", "P n -3:1", true, 17592194433024, 4718592⟩]

theorem names05_ok : names05.all NameRow.check = true := by decide +kernel

end Verif.HM
