import Verif.Proofs.NameCheck

/-! Generated by tools/gen_names.py; checked by the kernel. -/

namespace Verif.HM

/-- Rows with their names. -/
def names02 : List NameRow := [
  ⟨"-P 2c 2", "P m c m", true, 2199161667584, 5224367915008⟩,
  ⟨"-P 2 2a", "P m a m", true, 2199094558720, 5224435023872⟩,
  ⟨"-P 2a 2bc", "P n n a", true, 4399120777216, 3024408805376⟩,
  ⟨"-P 2b 2n", "P n n b", true, 4399121301504, 3024408281088⟩,
  ⟨"-P 2n 2b", "P b n n", true, 275960037376, 6597813731328⟩,
  ⟨"-P 2ab 2c", "P c n n", true, 550837944320, 6597813731328⟩,
  ⟨"-P 2ab 2n", "P n c n", true, 4398189117440, 3025340465152⟩,
  ⟨"-P 2n 2bc", "P n a n", true, 4398122008576, 3025407574016⟩,
  ⟨"-P 2ac 2", "P m n a", true, 2200097521664, 5223432060928⟩,
  ⟨"-P 2bc 2bc", "P n m b", true, 4398584430592, 3024945152000⟩,
  ⟨"-P 2ab 2ab", "P b m n", true, 275423166464, 7148106416128⟩,
  ⟨"-P 2 2ac", "P c n m", true, 550833750016, 6872695832576⟩,
  ⟨"-P 2 2bc", "P n c m", true, 4398184923136, 3025344659456⟩,
  ⟨"-P 2ab 2", "P m a n", true, 2199098753024, 5224430829568⟩,
  ⟨"-P 2a 2ac", "P c c a", true, 549890555904, 6873639026688⟩,
  ⟨"-P 2b 2c", "P c c b", true, 549891080192, 6598760595456⟩,
  ⟨"-P 2a 2b", "P b a a", true, 274945540096, 6598828228608⟩,
  ⟨"-P 2ac 2c", "P c a a", true, 549823447040, 6598828228608⟩,
  ⟨"-P 2bc 2b", "P b c b", true, 275013173248, 7148449300480⟩,
  ⟨"-P 2b 2ab", "P b a b", true, 274946064384, 7148449300480⟩,
  ⟨"-P 2 2ab", "P b a m", true, 274949210112, 7148580372480⟩,
  ⟨"-P 2bc 2", "P m c b", true, 2199158521856, 5224371060736⟩,
  ⟨"-P 2ac 2ac", "P c m a", true, 550293209088, 6873236373504⟩,
  ⟨"-P 2ab 2ac", "P c c n", true, 549898420224, 6873631162368⟩,
  ⟨"-P 2ac 2bc", "P n a a", true, 4398114144256, 3025415438336⟩,
  ⟨"-P 2bc 2ab", "P b n b", true, 275952697344, 7147576885248⟩,
  ⟨"-P 2c 2b", "P b c m", true, 275016318976, 7148513263616⟩,
  ⟨"-P 2c 2ac", "P c a m", true, 549827117056, 6873702465536⟩,
  ⟨"-P 2ac 2a", "P m c a", true, 2199157997568, 5224371585024⟩,
  ⟨"-P 2b 2a", "P m a b", true, 2199091412992, 5224438169600⟩,
  ⟨"-P 2a 2ab", "P b m a", true, 275415302144, 7148114280448⟩,
  ⟨"-P 2bc 2c", "P c m b", true, 550293733376, 6873235849216⟩,
  ⟨"-P 2 2n", "P n n m", true, 4399124447232, 3024405135360⟩,
  ⟨"-P 2n 2", "P m n n", true, 2200105385984, 5223424196608⟩,
  ⟨"-P 2n 2n", "P n m n", true, 4398591770624, 3024937811968⟩,
  ⟨"P 2 2ab -1ab", "P m m n:1", true, 2199568515072, 5223961067520⟩,
  ⟨"-P 2ab 2a", "P m m n:2", true, 2199568515072, 5223961067520⟩,
  ⟨"P 2bc 2 -1bc", "P n m m:1", true, 4398587576320, 3024942006272⟩,
  ⟨"-P 2c 2bc", "P n m m:2", true, 4398587576320, 3024942006272⟩,
  ⟨"P 2ac 2ac -1ac", "P m n m:1", true, 2200101191680, 5223428390912⟩,
  ⟨"-P 2c 2a", "P m n m:2", true, 2200101191680, 5223428390912⟩,
  ⟨"-P 2n 2ab", "P b c n", true, 275020513280, 7148509069312⟩,
  ⟨"-P 2n 2c", "P c a n", true, 549831311360, 6873698271232⟩,
  ⟨"-P 2a 2n", "P n c a", true, 4398181253120, 3025348329472⟩,
  ⟨"-P 2bc 2n", "P n a b", true, 4398114668544, 3025414914048⟩,
  ⟨"-P 2ac 2b", "P b n a", true, 275952173056, 7147577409536⟩,
  ⟨"-P 2b 2ac", "P c n b", true, 550830604288, 6872698978304⟩,
  ⟨"-P 2ac 2ab", "P b c a", true, 275012648960, 7148516933632⟩,
  ⟨"-P 2bc 2ac", "P c a b", true, 549823971328, 6873705611264⟩,
  ⟨"-P 2ac 2n", "P n m a", true, 4398583906304, 3024945676288⟩,
  ⟨"-P 2bc 2a", "P m n b", true, 2200098045952, 5223431536640⟩,
  ⟨"-P 2c 2ab", "P b n m", true, 275955843072, 7147573739520⟩,
  ⟨"-P 2n 2ac", "P c m n", true, 550301073408, 6873228509184⟩,
  ⟨"-P 2n 2a", "P m c n", true, 2199165861888, 5224363720704⟩,
  ⟨"-P 2c 2n", "P n a m", true, 4398117814272, 3025411768320⟩,
  ⟨"-C 2c 2", "C m c m", true, 2199161667584, 550293209088⟩,
  ⟨"-C 2c 2c", "C c m m", true, 550296879104, 2199158521856⟩,
  ⟨"-A 2a 2a", "A m m a", true, 2199560650752, 274949210112⟩,
  ⟨"-A 2 2a", "A m a m", true, 2199094558720, 550293209088⟩,
  ⟨"-B 2 2b", "B b m m", true, 275418972160, 2199158521856⟩,
  ⟨"-B 2b 2", "B m m b", true, 2199561175040, 274949210112⟩,
  ⟨"-C 2bc 2", "C m c a", true, 2199157997568, 550296879104⟩,
  ⟨"-C 2bc 2bc", "C c m b", true, 550293733376, 2199161667584⟩,
  ⟨"-A 2ac 2ac", "A b m a", true, 275415302144, 2199094558720⟩,
  ⟨"-A 2 2ac", "A c a m", true, 549827117056, 2199560650752⟩,
  ⟨"-B 2 2bc", "B b c m", true, 275016318976, 2199561175040⟩,
  ⟨"-B 2bc 2", "B m a b", true, 2199091412992, 275418972160⟩,
  ⟨"-C 2 2", "C m m m", true, 2199564320768, 549891604480⟩,
  ⟨"-A 2 2", "A m m m", true, 2199564320768, 824701353984⟩,
  ⟨"-B 2 2", "B m m m", true, 2199564320768, 275080282112⟩,
  ⟨"-C 2 2c", "C c c m", true, 549894225920, 2199561699328⟩,
  ⟨"-A 2a 2", "A m a a", true, 2199090888704, 825174786048⟩,
  ⟨"-B 2b 2b", "B b m b", true, 275415826432, 2199228776448⟩,
  ⟨"-C 2b 2", "C m m a", true, 2199560650752, 549894225920⟩,
  ⟨"-C 2b 2b", "C m m b", true, 2199561175040, 549894225920⟩,
  ⟨"-A 2c 2c", "A b m m", true, 275418972160, 2199090888704⟩,
  ⟨"-A 2 2c", "A c m m", true, 550296879104, 2199090888704⟩,
  ⟨"-B 2 2c", "B m c m", true, 2199161667584, 275415826432⟩,
  ⟨"-B 2c 2", "B m a m", true, 2199094558720, 275415826432⟩,
  ⟨"C 2 2 -1bc", "C c c a:1", true, 549890555904, 2199564320768⟩,
  ⟨"-C 2b 2bc", "C c c a:2", true, 549890555904, 2199564320768⟩,
  ⟨"C 2 2 -1bc", "C c c b:1", true, 549891080192, 2199564320768⟩,
  ⟨"-C 2b 2c", "C c c b:2", true, 549891080192, 2199564320768⟩,
  ⟨"A 2 2 -1ac", "A b a a:1", true, 274945540096, 2199564320768⟩,
  ⟨"-A 2a 2c", "A b a a:2", true, 274945540096, 2199564320768⟩,
  ⟨"A 2 2 -1ac", "A c a a:1", true, 549823447040, 2199564320768⟩,
  ⟨"-A 2ac 2c", "A c a a:2", true, 549823447040, 2199564320768⟩]

theorem names02_ok : names02.all NameRow.check = true := by decide +kernel

end Verif.HM
