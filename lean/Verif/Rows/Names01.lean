import Verif.Proofs.NameCheck

/-! Generated by tools/gen_names.py; checked by the kernel. -/

namespace Verif.HM

/-- Rows with their names. -/
def names01 : List NameRow := [
  ⟨"P 1", "P 1", true, 0, 0⟩,
  ⟨"-P 1", "P -1", true, 32768, 0⟩,
  ⟨"P 2y", "P 1 2 1", true, 16777216, 33554432⟩,
  ⟨"P 2", "P 1 1 2", true, 1, 2⟩,
  ⟨"P 2x", "P 2 1 1", true, 68719476736, 137438953472⟩,
  ⟨"P 2yb", "P 1 21 1", true, 33554432, 16777216⟩,
  ⟨"P 2c", "P 1 1 21", true, 2, 1⟩,
  ⟨"P 2xa", "P 21 1 1", true, 137438953472, 68719476736⟩,
  ⟨"C 2y", "C 1 2 1", true, 16777216, 0⟩,
  ⟨"A 2y", "A 1 2 1", true, 16777216, 0⟩,
  ⟨"I 2y", "I 1 2 1", true, 16777216, 0⟩,
  ⟨"A 2", "A 1 1 2", true, 1, 0⟩,
  ⟨"B 2", "B 1 1 2", true, 1, 0⟩,
  ⟨"I 2", "I 1 1 2", true, 1, 0⟩,
  ⟨"B 2x", "B 2 1 1", true, 68719476736, 0⟩,
  ⟨"C 2x", "C 2 1 1", true, 68719476736, 0⟩,
  ⟨"I 2x", "I 2 1 1", true, 68719476736, 0⟩,
  ⟨"P -2y", "P 1 m 1", true, 536870912, 1275068416⟩,
  ⟨"P -2", "P 1 1 m", true, 4194304, 9961472⟩,
  ⟨"P -2x", "P m 1 1", true, 2199023255552, 5222680231936⟩,
  ⟨"P -2yc", "P 1 c 1", true, 134217728, 536870912⟩,
  ⟨"P -2yac", "P 1 n 1", true, 1073741824, 536870912⟩,
  ⟨"P -2ya", "P 1 a 1", true, 67108864, 536870912⟩,
  ⟨"P -2a", "P 1 1 a", true, 524288, 4194304⟩,
  ⟨"P -2ab", "P 1 1 n", true, 8388608, 4194304⟩,
  ⟨"P -2b", "P 1 1 b", true, 1048576, 4194304⟩,
  ⟨"P -2xb", "P b 1 1", true, 274877906944, 2199023255552⟩,
  ⟨"P -2xbc", "P n 1 1", true, 4398046511104, 2199023255552⟩,
  ⟨"P -2xc", "P c 1 1", true, 549755813888, 2199023255552⟩,
  ⟨"C -2y", "C 1 m 1", true, 536870912, 1207959552⟩,
  ⟨"A -2y", "A 1 m 1", true, 536870912, 1140850688⟩,
  ⟨"I -2y", "I 1 m 1", true, 536870912, 201326592⟩,
  ⟨"A -2", "A 1 1 m", true, 4194304, 8912896⟩,
  ⟨"B -2", "B 1 1 m", true, 4194304, 9437184⟩,
  ⟨"I -2", "I 1 1 m", true, 4194304, 1572864⟩,
  ⟨"B -2x", "B m 1 1", true, 2199023255552, 4672924418048⟩,
  ⟨"C -2x", "C m 1 1", true, 2199023255552, 4947802324992⟩,
  ⟨"I -2x", "I m 1 1", true, 2199023255552, 824633720832⟩,
  ⟨"C -2yc", "C 1 c 1", true, 134217728, 536870912⟩,
  ⟨"A -2yac", "A 1 n 1", true, 1073741824, 536870912⟩,
  ⟨"I -2ya", "I 1 a 1", true, 67108864, 536870912⟩,
  ⟨"A -2ya", "A 1 a 1", true, 67108864, 536870912⟩,
  ⟨"C -2ybc", "C 1 n 1", true, 1073741824, 536870912⟩,
  ⟨"I -2yc", "I 1 c 1", true, 134217728, 536870912⟩,
  ⟨"A -2a", "A 1 1 a", true, 524288, 4194304⟩,
  ⟨"B -2bc", "B 1 1 n", true, 8388608, 4194304⟩,
  ⟨"I -2b", "I 1 1 b", true, 1048576, 4194304⟩,
  ⟨"B -2b", "B 1 1 b", true, 1048576, 4194304⟩,
  ⟨"A -2ac", "A 1 1 n", true, 8388608, 4194304⟩,
  ⟨"I -2a", "I 1 1 a", true, 524288, 4194304⟩,
  ⟨"B -2xb", "B b 1 1", true, 274877906944, 2199023255552⟩,
  ⟨"C -2xbc", "C n 1 1", true, 4398046511104, 2199023255552⟩,
  ⟨"I -2xc", "I c 1 1", true, 549755813888, 2199023255552⟩,
  ⟨"C -2xc", "C c 1 1", true, 549755813888, 2199023255552⟩,
  ⟨"B -2xbc", "B n 1 1", true, 4398046511104, 2199023255552⟩,
  ⟨"I -2xb", "I b 1 1", true, 274877906944, 2199023255552⟩,
  ⟨"-P 2y", "P 1 2/m 1", true, 553648128, 1308622848⟩,
  ⟨"-P 2", "P 1 1 2/m", true, 4194305, 9961474⟩,
  ⟨"-P 2x", "P 2/m 1 1", true, 2267742732288, 5360119185408⟩,
  ⟨"-P 2yb", "P 1 21/m 1", true, 570425344, 1291845632⟩,
  ⟨"-P 2c", "P 1 1 21/m", true, 4194306, 9961473⟩,
  ⟨"-P 2xa", "P 21/m 1 1", true, 2336462209024, 5291399708672⟩,
  ⟨"-C 2y", "C 1 2/m 1", true, 553648128, 1207959552⟩,
  ⟨"-A 2y", "A 1 2/m 1", true, 553648128, 1140850688⟩,
  ⟨"-I 2y", "I 1 2/m 1", true, 553648128, 201326592⟩,
  ⟨"-A 2", "A 1 1 2/m", true, 4194305, 8912896⟩,
  ⟨"-B 2", "B 1 1 2/m", true, 4194305, 9437184⟩,
  ⟨"-I 2", "I 1 1 2/m", true, 4194305, 1572864⟩,
  ⟨"-B 2x", "B 2/m 1 1", true, 2267742732288, 4672924418048⟩,
  ⟨"-C 2x", "C 2/m 1 1", true, 2267742732288, 4947802324992⟩,
  ⟨"-I 2x", "I 2/m 1 1", true, 2267742732288, 824633720832⟩,
  ⟨"-P 2yc", "P 1 2/c 1", true, 150994944, 570425344⟩,
  ⟨"-P 2yac", "P 1 2/n 1", true, 1090519040, 570425344⟩,
  ⟨"-P 2ya", "P 1 2/a 1", true, 83886080, 570425344⟩,
  ⟨"-P 2a", "P 1 1 2/a", true, 524289, 4194306⟩,
  ⟨"-P 2ab", "P 1 1 2/n", true, 8388609, 4194306⟩,
  ⟨"-P 2b", "P 1 1 2/b", true, 1048577, 4194306⟩,
  ⟨"-P 2xb", "P 2/b 1 1", true, 343597383680, 2336462209024⟩,
  ⟨"-P 2xbc", "P 2/n 1 1", true, 4466765987840, 2336462209024⟩,
  ⟨"-P 2xc", "P 2/c 1 1", true, 618475290624, 2336462209024⟩,
  ⟨"-P 2ybc", "P 1 21/c 1", true, 167772160, 553648128⟩,
  ⟨"-P 2yn", "P 1 21/n 1", true, 1107296256, 553648128⟩,
  ⟨"-P 2yab", "P 1 21/a 1", true, 100663296, 553648128⟩,
  ⟨"-P 2ac", "P 1 1 21/a", true, 524290, 4194305⟩,
  ⟨"-P 2n", "P 1 1 21/n", true, 8388610, 4194305⟩,
  ⟨"-P 2bc", "P 1 1 21/b", true, 1048578, 4194305⟩,
  ⟨"-P 2xab", "P 21/b 1 1", true, 412316860416, 2267742732288⟩,
  ⟨"-P 2xn", "P 21/n 1 1", true, 4535485464576, 2267742732288⟩,
  ⟨"-P 2xac", "P 21/c 1 1", true, 687194767360, 2267742732288⟩,
  ⟨"-C 2yc", "C 1 2/c 1", true, 150994944, 536870912⟩,
  ⟨"-A 2yac", "A 1 2/n 1", true, 1090519040, 536870912⟩,
  ⟨"-I 2ya", "I 1 2/a 1", true, 83886080, 536870912⟩,
  ⟨"-A 2ya", "A 1 2/a 1", true, 83886080, 536870912⟩,
  ⟨"-C 2ybc", "C 1 2/n 1", true, 1090519040, 536870912⟩,
  ⟨"-I 2yc", "I 1 2/c 1", true, 150994944, 536870912⟩,
  ⟨"-A 2a", "A 1 1 2/a", true, 524289, 4194304⟩,
  ⟨"-B 2bc", "B 1 1 2/n", true, 8388609, 4194304⟩,
  ⟨"-I 2b", "I 1 1 2/b", true, 1048577, 4194304⟩,
  ⟨"-B 2b", "B 1 1 2/b", true, 1048577, 4194304⟩,
  ⟨"-A 2ac", "A 1 1 2/n", true, 8388609, 4194304⟩,
  ⟨"-I 2a", "I 1 1 2/a", true, 524289, 4194304⟩,
  ⟨"-B 2xb", "B 2/b 1 1", true, 343597383680, 2199023255552⟩,
  ⟨"-C 2xbc", "C 2/n 1 1", true, 4466765987840, 2199023255552⟩,
  ⟨"-I 2xc", "I 2/c 1 1", true, 618475290624, 2199023255552⟩,
  ⟨"-C 2xc", "C 2/c 1 1", true, 618475290624, 2199023255552⟩,
  ⟨"-B 2xbc", "B 2/n 1 1", true, 4466765987840, 2199023255552⟩,
  ⟨"-I 2xb", "I 2/b 1 1", true, 343597383680, 2199023255552⟩,
  ⟨"P 2 2", "P 2 2 2", true, 68736253953, 137472507906⟩,
  ⟨"P 2c 2", "P 2 2 21", true, 68736253954, 137472507905⟩,
  ⟨"P 2a 2a", "P 21 2 2", true, 137455730689, 68753031170⟩,
  ⟨"P 2 2b", "P 2 21 2", true, 68753031169, 137455730690⟩,
  ⟨"P 2 2ab", "P 21 21 2", true, 137472507905, 68736253954⟩,
  ⟨"P 2bc 2", "P 2 21 21", true, 68753031170, 137455730689⟩,
  ⟨"P 2ac 2ac", "P 21 2 21", true, 137455730690, 68753031169⟩,
  ⟨"P 2ac 2ab", "P 21 21 21", true, 137472507906, 68736253953⟩,
  ⟨"C 2c 2", "C 2 2 21", true, 68736253954, 1⟩,
  ⟨"A 2a 2a", "A 21 2 2", true, 137455730689, 68719476736⟩,
  ⟨"B 2 2b", "B 2 21 2", true, 68753031169, 16777216⟩,
  ⟨"C 2 2", "C 2 2 2", true, 68736253953, 2⟩,
  ⟨"A 2 2", "A 2 2 2", true, 68736253953, 137438953472⟩,
  ⟨"B 2 2", "B 2 2 2", true, 68736253953, 33554432⟩,
  ⟨"F 2 2", "F 2 2 2", true, 68736253953, 0⟩,
  ⟨"I 2 2", "I 2 2 2", true, 68736253953, 0⟩,
  ⟨"I 2ac 2bc", "I 21 21 21", true, 137472507906, 0⟩,
  ⟨"P 2 -2", "P m m 2", true, 2199560126465, 276152975362⟩,
  ⟨"P -2 2", "P 2 m m", true, 69260541952, 137583132672⟩,
  ⟨"P -2 -2", "P m 2 m", true, 2199044227072, 549799329792⟩,
  ⟨"P 2c -2", "P m c 21", true, 2199157473282, 276555628545⟩,
  ⟨"P 2c -2c", "P c m 21", true, 550292684802, 4399321579521⟩,
  ⟨"P -2a 2a", "P 21 m a", true, 137976348672, 68867325952⟩,
  ⟨"P -2 2a", "P 21 a m", true, 137510256640, 69803180032⟩,
  ⟨"P -2 -2b", "P b 21 m", true, 274915655680, 4398073249792⟩,
  ⟨"P -2b -2", "P m 21 b", true, 2199057858560, 549785698304⟩,
  ⟨"P 2 -2c", "P c c 2", true, 549890031617, 4399724232706⟩,
  ⟨"P -2a 2", "P 2 a a", true, 68787109888, 138526326784⟩,
  ⟨"P -2b -2b", "P b 2 b", true, 274895732736, 4398093172736⟩,
  ⟨"P 2 -2a", "P m a 2", true, 2199090364417, 276622737410⟩,
  ⟨"P 2 -2b", "P b m 2", true, 275414777857, 2200298323970⟩,
  ⟨"P -2b 2", "P 2 m b", true, 69257396224, 137586278400⟩,
  ⟨"P -2c 2", "P 2 c m", true, 68857888768, 137985785856⟩,
  ⟨"P -2c -2c", "P c 2 m", true, 549776785408, 2199066771456⟩,
  ⟨"P -2a -2a", "P m 2 a", true, 2199040557056, 549802999808⟩,
  ⟨"P 2c -2ac", "P c a 21", true, 549822922754, 4399791341569⟩,
  ⟨"P 2c -2b", "P b c 21", true, 275012124674, 2200700977153⟩,
  ⟨"P -2b 2a", "P 21 a b", true, 137507110912, 69806325760⟩,
  ⟨"P -2ac 2a", "P 21 c a", true, 137573695488, 69269979136⟩,
  ⟨"P -2bc -2c", "P c 21 b", true, 549790416896, 2199053139968⟩,
  ⟨"P -2a -2ab", "P b 21 a", true, 274911985664, 4398076919808⟩,
  ⟨"P 2 -2bc", "P n c 2", true, 4398180728833, 551433535490⟩,
  ⟨"P 2 -2ac", "P c n 2", true, 550829555713, 4398784708610⟩,
  ⟨"P -2ac 2", "P 2 n a", true, 69793742848, 137519693824⟩,
  ⟨"P -2ab 2", "P 2 a n", true, 68794974208, 138518462464⟩,
  ⟨"P -2ab -2ab", "P b 2 n", true, 274903072768, 4398085832704⟩,
  ⟨"P -2bc -2bc", "P n 2 b", true, 4398064336896, 274924568576⟩,
  ⟨"P 2ac -2", "P m n 21", true, 2200096997378, 275616104449⟩,
  ⟨"P 2bc -2bc", "P n m 21", true, 4398583382018, 551030882305⟩,
  ⟨"P -2ab 2ab", "P 21 m n", true, 137984212992, 68859461632⟩,
  ⟨"P -2 2ac", "P 21 n m", true, 138516889600, 68796547072⟩,
  ⟨"P -2 -2bc", "P n 21 m", true, 4398084259840, 274904645632⟩,
  ⟨"P -2ab -2", "P m 21 n", true, 2199065198592, 549778358272⟩,
  ⟨"P 2 -2ab", "P b a 2", true, 274945015809, 2200768086018⟩,
  ⟨"P -2bc 2", "P 2 c b", true, 68854743040, 137988931584⟩,
  ⟨"P -2ac -2ac", "P c 2 a", true, 549773115392, 2199070441472⟩,
  ⟨"P 2c -2n", "P n a 21", true, 4398113619970, 551500644353⟩,
  ⟨"P 2c -2ab", "P b n 21", true, 275951648770, 2199761453057⟩,
  ⟨"P -2bc 2a", "P 21 n b", true, 138513743872, 68799692800⟩,
  ⟨"P -2n 2a", "P 21 c n", true, 137581559808, 69262114816⟩,
  ⟨"P -2n -2ac", "P c 21 n", true, 549797756928, 2199045799936⟩,
  ⟨"P -2ac -2n", "P n 21 a", true, 4398080589824, 274908315648⟩,
  ⟨"P 2 -2n", "P n n 2", true, 4399120252929, 550494011394⟩,
  ⟨"P -2n 2", "P 2 n n", true, 69801607168, 137511829504⟩,
  ⟨"P -2n -2n", "P n 2 n", true, 4398071676928, 274917228544⟩,
  ⟨"C 2 -2", "C m m 2", true, 2199560126465, 134217730⟩,
  ⟨"A -2 2", "A 2 m m", true, 69260541952, 67633152⟩,
  ⟨"B -2 -2", "B m 2 m", true, 2199044227072, 34603008⟩,
  ⟨"C 2c -2", "C m c 21", true, 2199157473282, 1⟩,
  ⟨"C 2c -2c", "C c m 21", true, 550292684802, 1⟩,
  ⟨"A -2a 2a", "A 21 m a", true, 137976348672, 68719476736⟩,
  ⟨"A -2 2a", "A 21 a m", true, 137510256640, 68719476736⟩,
  ⟨"B -2 -2b", "B b 21 m", true, 274915655680, 16777216⟩,
  ⟨"B -2b -2", "B m 21 b", true, 2199057858560, 16777216⟩,
  ⟨"C 2 -2c", "C c c 2", true, 549890031617, 536870914⟩,
  ⟨"A -2a 2", "A 2 a a", true, 68787109888, 541065216⟩,
  ⟨"B -2b -2b", "B b 2 b", true, 274895732736, 37748736⟩,
  ⟨"A 2 -2", "A m m 2", true, 2199560126465, 274945015808⟩,
  ⟨"B 2 -2", "B m m 2", true, 2199560126465, 274945015808⟩,
  ⟨"B -2 2", "B 2 m m", true, 69260541952, 135266304⟩,
  ⟨"C -2 2", "C 2 m m", true, 69260541952, 135266304⟩,
  ⟨"C -2 -2", "C m 2 m", true, 2199044227072, 549756338176⟩,
  ⟨"A -2 -2", "A m 2 m", true, 2199044227072, 549756338176⟩,
  ⟨"A 2 -2b", "A b m 2", true, 275414777857, 2199090364416⟩,
  ⟨"B 2 -2c", "B m a 2", true, 2199090364417, 275414777856⟩,
  ⟨"B -2c 2", "B 2 c m", true, 68857888768, 537919488⟩,
  ⟨"C -2b 2", "C 2 m b", true, 69257396224, 138412032⟩,
  ⟨"C -2b -2b", "C m 2 a", true, 2199040557056, 549760008192⟩,
  ⟨"A -2c -2c", "A c 2 m", true, 549776785408, 2199023779840⟩,
  ⟨"A 2 -2a", "A m a 2", true, 2199090364417, 275414777856⟩,
  ⟨"B 2 -2b", "B b m 2", true, 275414777857, 2199090364416⟩,
  ⟨"B -2b 2", "B 2 m b", true, 69257396224, 138412032⟩,
  ⟨"C -2c 2", "C 2 c m", true, 68857888768, 537919488⟩,
  ⟨"C -2c -2c", "C c 2 m", true, 549776785408, 2199023779840⟩,
  ⟨"A -2a -2a", "A m 2 a", true, 2199040557056, 549760008192⟩,
  ⟨"A 2 -2ab", "A b a 2", true, 274945015809, 2199560126464⟩,
  ⟨"B 2 -2bc", "B b a 2", true, 274945015809, 2199560126464⟩,
  ⟨"B -2bc 2", "B 2 c b", true, 68854743040, 541065216⟩,
  ⟨"C -2bc 2", "C 2 c b", true, 68854743040, 541065216⟩,
  ⟨"C -2bc -2bc", "C c 2 a", true, 549773115392, 2199027449856⟩,
  ⟨"A -2ac -2ac", "A c 2 a", true, 549773115392, 2199027449856⟩,
  ⟨"F 2 -2", "F m m 2", true, 2199560126465, 268435456⟩,
  ⟨"F -2 2", "F 2 m m", true, 69260541952, 2097152⟩,
  ⟨"F -2 -2", "F m 2 m", true, 2199044227072, 2097152⟩,
  ⟨"F 2 -2yd", "F d d 2", true, 1099780063233, 536870912⟩,
  ⟨"F -2d 2", "F 2 d d", true, 68990009344, 4194304⟩,
  ⟨"F -2d -2d", "F d 2 d", true, 1099530502144, 4194304⟩,
  ⟨"I 2 -2", "I m m 2", true, 2199560126465, 274945015808⟩,
  ⟨"I -2 2", "I 2 m m", true, 69260541952, 135266304⟩,
  ⟨"I -2 -2", "I m 2 m", true, 2199044227072, 549756338176⟩,
  ⟨"I 2 -2c", "I b a 2", true, 274945015809, 2199560126464⟩,
  ⟨"I -2a 2", "I 2 c b", true, 68854743040, 541065216⟩,
  ⟨"I -2b -2b", "I c 2 a", true, 549773115392, 2199027449856⟩,
  ⟨"I 2 -2a", "I m a 2", true, 2199090364417, 275414777856⟩,
  ⟨"I 2 -2b", "I b m 2", true, 275414777857, 2199090364416⟩,
  ⟨"I -2b 2", "I 2 m b", true, 69257396224, 138412032⟩,
  ⟨"I -2c 2", "I 2 c m", true, 68857888768, 537919488⟩,
  ⟨"I -2c -2c", "I c 2 m", true, 549776785408, 2199023779840⟩,
  ⟨"I -2a -2a", "I m 2 a", true, 2199040557056, 549760008192⟩,
  ⟨"-P 2 2", "P m m m", true, 2199564320768, 5223965261824⟩,
  ⟨"P 2 2 -1n", "P n n n:1", true, 4399128641536, 3024400941056⟩,
  ⟨"-P 2ab 2bc", "P n n n:2", true, 4399128641536, 3024400941056⟩,
  ⟨"-P 2 2c", "P c c m", true, 549894225920, 6873635356672⟩,
  ⟨"-P 2a 2", "P m a a", true, 2199090888704, 5224438693888⟩,
  ⟨"-P 2b 2b", "P b m b", true, 275415826432, 7148113756160⟩,
  ⟨"P 2 2 -1ab", "P b a n:1", true, 274953404416, 7148576178176⟩,
  ⟨"-P 2ab 2b", "P b a n:2", true, 274953404416, 7148576178176⟩,
  ⟨"P 2 2 -1bc", "P n c b:1", true, 4398181777408, 3025347805184⟩,
  ⟨"-P 2b 2bc", "P n c b:2", true, 4398181777408, 3025347805184⟩,
  ⟨"P 2 2 -1ac", "P c n a:1", true, 550830080000, 6872699502592⟩,
  ⟨"-P 2a 2c", "P c n a:2", true, 550830080000, 6872699502592⟩,
  ⟨"-P 2a 2a", "P m m a", true, 2199560650752, 5223968931840⟩,
  ⟨"-P 2b 2", "P m m b", true, 2199561175040, 5223968407552⟩,
  ⟨"-P 2 2b", "P b m m", true, 275418972160, 6598354796544⟩,
  ⟨"-P 2c 2c", "P c m m", true, 550296879104, 6598354796544⟩]

theorem names01_ok : names01.all NameRow.check = true := by decide +kernel

end Verif.HM
