import Verif.Proofs.NameCheck

/-! Generated by tools/gen_names.py; checked by the kernel. -/

namespace Verif.HM

/-- Rows with their names. -/
def names03 : List NameRow := [
  ⟨"B 2 2 -1bc", "B b c b:1", true, 275013173248, 2199564320768⟩,
  ⟨"-B 2bc 2b", "B b c b:2", true, 275013173248, 2199564320768⟩,
  ⟨"B 2 2 -1bc", "B b a b:1", true, 274946064384, 2199564320768⟩,
  ⟨"-B 2b 2bc", "B b a b:2", true, 274946064384, 2199564320768⟩,
  ⟨"-F 2 2", "F m m m", true, 2199564320768, 2097152⟩,
  ⟨"F 2 2 -1d", "F d d d:1", true, 1099782160384, 4194304⟩,
  ⟨"-F 2uv 2vw", "F d d d:2", true, 1099782160384, 4194304⟩,
  ⟨"-I 2 2", "I m m m", true, 2199564320768, 824836620288⟩,
  ⟨"-I 2 2c", "I b a m", true, 274949210112, 2199561699328⟩,
  ⟨"-I 2a 2", "I m c b", true, 2199158521856, 825174786048⟩,
  ⟨"-I 2b 2b", "I c m a", true, 550293209088, 2199228776448⟩,
  ⟨"-I 2b 2c", "I b c a", true, 275012648960, 2199564320768⟩,
  ⟨"-I 2a 2b", "I c a b", true, 549823971328, 2199564320768⟩,
  ⟨"-I 2b 2", "I m m a", true, 2199560650752, 549894225920⟩,
  ⟨"-I 2a 2a", "I m m b", true, 2199561175040, 549894225920⟩,
  ⟨"-I 2c 2c", "I b m m", true, 275418972160, 2199091937280⟩,
  ⟨"-I 2 2b", "I c m m", true, 550296879104, 2199091937280⟩,
  ⟨"-I 2 2a", "I m c m", true, 2199161667584, 275416350720⟩,
  ⟨"-I 2c 2", "I m a m", true, 2199094558720, 275416350720⟩,
  ⟨"P 4", "P 4", true, 32, 448⟩,
  ⟨"P 4w", "P 41", true, 64, 416⟩,
  ⟨"P 4c", "P 42", true, 128, 352⟩,
  ⟨"P 4cw", "P 43", true, 256, 224⟩,
  ⟨"I 4", "I 4", true, 32, 64⟩,
  ⟨"I 4bw", "I 41", true, 64, 32⟩,
  ⟨"P -4", "P -4", true, 131072, 0⟩,
  ⟨"I -4", "I -4", true, 131072, 0⟩,
  ⟨"-P 4", "P 4/m", true, 4194336, 8388736⟩,
  ⟨"-P 4c", "P 42/m", true, 4194432, 8388640⟩,
  ⟨"P 4ab -1ab", "P 4/n:1", true, 8388640, 4194432⟩,
  ⟨"-P 4a", "P 4/n:2", true, 8388640, 4194432⟩,
  ⟨"P 4n -1n", "P 42/n:1", true, 8388736, 4194336⟩,
  ⟨"-P 4bc", "P 42/n:2", true, 8388736, 4194336⟩,
  ⟨"-I 4", "I 4/m", true, 4194336, 64⟩,
  ⟨"I 4bw -1bw", "I 41/a:1", true, 524352, 32⟩,
  ⟨"-I 4ad", "I 41/a:2", true, 524352, 32⟩,
  ⟨"P 4 2", "P 4 2 2", true, 70866960416, 137438953920⟩,
  ⟨"P 4ab 2ab", "P 42 1 2", false, 2147483776, 68719477184⟩,
  ⟨"P 4w 2c", "P 41 2 2", true, 70866960448, 137438953888⟩,
  ⟨"P 4abw 2nw", "P 41 21 2", true, 139586437184, 68719477120⟩,
  ⟨"P 4c 2", "P 42 2 2", true, 70866960512, 137438953824⟩,
  ⟨"P 4n 2n", "P 42 21 2", true, 139586437248, 68719477056⟩,
  ⟨"P 4cw 2c", "P 43 2 2", true, 70866960640, 137438953696⟩,
  ⟨"P 4nw 2abw", "P 43 21 2", true, 139586437376, 68719476928⟩,
  ⟨"I 4 2", "I 4 2 2", true, 70866960416, 64⟩,
  ⟨"I 4bw 2bw", "I 41 2 2", true, 70866960448, 32⟩,
  ⟨"P 4 -2", "P 4 m m", true, 2216203124768, 279172874368⟩,
  ⟨"P 4 -2ab", "P 4 b m", true, 292057776160, 2203318222976⟩,
  ⟨"P 4c -2c", "P 42 c m", true, 566935683200, 4402341478432⟩,
  ⟨"P 4n -2n", "P 42 n m", true, 4415226380416, 554050781216⟩,
  ⟨"P 4 -2c", "P 4 c c", true, 554050781216, 4415226380416⟩,
  ⟨"P 4 -2n", "P 4 n c", true, 4402341478432, 566935683200⟩,
  ⟨"P 4c -2", "P 42 m c", true, 2203318222976, 292057776160⟩,
  ⟨"P 4c -2ab", "P 42 b c", true, 279172874368, 2216203124768⟩,
  ⟨"I 4 -2", "I 4 m m", true, 2216203124768, 549755813952⟩,
  ⟨"I 4 -2c", "I 4 c m", true, 566935683104, 2199023255616⟩,
  ⟨"I 4bw -2", "I 41 m d", true, 2207613190208, 549755813920⟩,
  ⟨"I 4bw -2c", "I 41 c d", true, 558345748544, 2199023255584⟩,
  ⟨"P -4 2", "P -4 2 m", true, 85899476992, 141733920768⟩,
  ⟨"P -4 2c", "P -4 2 c", true, 73014575104, 154618822656⟩,
  ⟨"P -4 2ab", "P -4 21 m", true, 154618953728, 73014444032⟩,
  ⟨"P -4 2n", "P -4 21 c", true, 141734051840, 85899345920⟩,
  ⟨"P -4 -2", "P -4 m 2", true, 2201170870272, 5222680231936⟩,
  ⟨"P -4 -2c", "P -4 c 2", true, 551903428608, 6871947673600⟩,
  ⟨"P -4 -2ab", "P -4 b 2", true, 277025521664, 7146825580544⟩,
  ⟨"P -4 -2n", "P -4 n 2", true, 4400194125824, 3023656976384⟩,
  ⟨"I -4 -2", "I -4 m 2", true, 2201170870272, 549755813888⟩,
  ⟨"I -4 -2c", "I -4 c 2", true, 551903428608, 2199023255552⟩,
  ⟨"I -4 2", "I -4 2 m", true, 85899476992, 8589934592⟩,
  ⟨"I -4 2bw", "I -4 2 d", true, 77309542400, 17179869184⟩,
  ⟨"-P 4 2", "P 4/m m m", true, 2216207319072, 279181262976⟩,
  ⟨"-P 4 2c", "P 4/m c c", true, 554054975520, 4415234769024⟩,
  ⟨"P 4 2 -1ab", "P 4/n b m:1", true, 292066164768, 2203322417280⟩,
  ⟨"-P 4a 2b", "P 4/n b m:2", true, 292066164768, 2203322417280⟩,
  ⟨"P 4 2 -1n", "P 4/n n c:1", true, 4402349867040, 566939877504⟩,
  ⟨"-P 4a 2bc", "P 4/n n c:2", true, 4402349867040, 566939877504⟩,
  ⟨"-P 4 2ab", "P 4/m b m", true, 292061970464, 2203326611584⟩,
  ⟨"-P 4 2n", "P 4/m n c", true, 4402345672736, 566944071808⟩]

theorem names03_ok : names03.all NameRow.check = true := by decide +kernel

end Verif.HM
