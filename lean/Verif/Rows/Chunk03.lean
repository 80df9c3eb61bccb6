import Verif.Data.Functionals

/-! Generated by tools/gen_rows.py; checked by the kernel. -/

namespace Verif

/-- Rows of the tables. -/
def rows03 : List Row := [
  ⟨37, "C 2 -2c", "B -2b -2b", 10071922264245415326818, true, ⟨⟨-1, 0, 0, 0, 0, -1, 0, -1, 0⟩, ⟨0, 0, 0⟩, 1⟩, ⟨⟨-1, 0, 0, 0, 0, -1, 0, -1, 0⟩, ⟨0, 0, 0⟩, 1⟩⟩,
  ⟨38, "A 2 -2", "A 2 -2", 242397332353, true, idM, idM⟩,
  ⟨38, "A 2 -2", "B 2 -2", 242397332354, true, ⟨⟨0, -1, 0, -1, 0, 0, 0, 0, -1⟩, ⟨0, 0, 0⟩, 1⟩, ⟨⟨0, -1, 0, -1, 0, 0, 0, 0, -1⟩, ⟨0, 0, 0⟩, 1⟩⟩,
  ⟨38, "A 2 -2", "B -2 2", 300647854082, true, ⟨⟨0, 0, -1, -1, 0, 0, 0, 1, 0⟩, ⟨0, 0, 0⟩, 1⟩, ⟨⟨0, -1, 0, 0, 0, 1, -1, 0, 0⟩, ⟨0, 0, 0⟩, 1⟩⟩,
  ⟨38, "A 2 -2", "C -2 2", 300647854083, true, ⟨⟨0, 0, -1, 0, -1, 0, -1, 0, 0⟩, ⟨0, 0, 0⟩, 1⟩, ⟨⟨0, 0, -1, 0, -1, 0, -1, 0, 0⟩, ⟨0, 0, 0⟩, 1⟩⟩,
  ⟨38, "A 2 -2", "C -2 -2", 144483, true, ⟨⟨0, -1, 0, 0, 0, -1, 1, 0, 0⟩, ⟨0, 0, 0⟩, 1⟩, ⟨⟨0, 0, 1, -1, 0, 0, 0, -1, 0⟩, ⟨0, 0, 0⟩, 1⟩⟩,
  ⟨38, "A 2 -2", "A -2 -2", 144481, true, ⟨⟨-1, 0, 0, 0, 0, -1, 0, -1, 0⟩, ⟨0, 0, 0⟩, 1⟩, ⟨⟨-1, 0, 0, 0, 0, -1, 0, -1, 0⟩, ⟨0, 0, 0⟩, 1⟩⟩,
  ⟨39, "A 2 -2b", "A 2 -2b", 774763251338198500225, true, idM, idM⟩,
  ⟨39, "A 2 -2b", "B 2 -2c", 774763251338198500226, true, ⟨⟨0, -1, 0, -1, 0, 0, 0, 0, -1⟩, ⟨0, 0, 0⟩, 1⟩, ⟨⟨0, -1, 0, -1, 0, 0, 0, 0, -1⟩, ⟨0, 0, 0⟩, 1⟩⟩,
  ⟨39, "A 2 -2b", "B -2c 2", 774763251396449021954, true, ⟨⟨0, 0, -1, -1, 0, 0, 0, 1, 0⟩, ⟨0, 0, 0⟩, 1⟩, ⟨⟨0, -1, 0, 0, 0, 1, -1, 0, 0⟩, ⟨0, 0, 0⟩, 1⟩⟩,
  ⟨39, "A 2 -2b", "C -2b 2", 774763251396449021955, true, ⟨⟨0, 0, -1, 0, -1, 0, -1, 0, 0⟩, ⟨0, 0, 0⟩, 1⟩, ⟨⟨0, 0, -1, 0, -1, 0, -1, 0, 0⟩, ⟨0, 0, 0⟩, 1⟩⟩,
  ⟨39, "A 2 -2b", "C -2b -2b", 774763251095801312355, true, ⟨⟨0, -1, 0, 0, 0, -1, 1, 0, 0⟩, ⟨0, 0, 0⟩, 1⟩, ⟨⟨0, 0, 1, -1, 0, 0, 0, -1, 0⟩, ⟨0, 0, 0⟩, 1⟩⟩,
  ⟨39, "A 2 -2b", "A -2c -2c", 774763251095801312353, true, ⟨⟨-1, 0, 0, 0, 0, -1, 0, -1, 0⟩, ⟨0, 0, 0⟩, 1⟩, ⟨⟨-1, 0, 0, 0, 0, -1, 0, -1, 0⟩, ⟨0, 0, 0⟩, 1⟩⟩,
  ⟨40, "A 2 -2a", "A 2 -2a", 10071922264487812514689, true, idM, idM⟩,
  ⟨40, "A 2 -2a", "B 2 -2b", 10071922264487812514690, true, ⟨⟨0, -1, 0, -1, 0, 0, 0, 0, -1⟩, ⟨0, 0, 0⟩, 1⟩, ⟨⟨0, -1, 0, -1, 0, 0, 0, 0, -1⟩, ⟨0, 0, 0⟩, 1⟩⟩,
  ⟨40, "A 2 -2a", "B -2b 2", 10071922264546063036418, true, ⟨⟨0, 0, -1, -1, 0, 0, 0, 1, 0⟩, ⟨0, 0, 0⟩, 1⟩, ⟨⟨0, -1, 0, 0, 0, 1, -1, 0, 0⟩, ⟨0, 0, 0⟩, 1⟩⟩,
  ⟨40, "A 2 -2a", "C -2c 2", 10071922264546063036419, true, ⟨⟨0, 0, -1, 0, -1, 0, -1, 0, 0⟩, ⟨0, 0, 0⟩, 1⟩, ⟨⟨0, 0, -1, 0, -1, 0, -1, 0, 0⟩, ⟨0, 0, 0⟩, 1⟩⟩,
  ⟨40, "A 2 -2a", "C -2c -2c", 10071922264245415326819, true, ⟨⟨0, -1, 0, 0, 0, -1, 1, 0, 0⟩, ⟨0, 0, 0⟩, 1⟩, ⟨⟨0, 0, 1, -1, 0, 0, 0, -1, 0⟩, ⟨0, 0, 0⟩, 1⟩⟩,
  ⟨40, "A 2 -2a", "A -2a -2a", 10071922264245415326817, true, ⟨⟨-1, 0, 0, 0, 0, -1, 0, -1, 0⟩, ⟨0, 0, 0⟩, 1⟩, ⟨⟨-1, 0, 0, 0, 0, -1, 0, -1, 0⟩, ⟨0, 0, 0⟩, 1⟩⟩,
  ⟨41, "A 2 -2ab", "A 2 -2ab", 10846685515583613682561, true, idM, idM⟩,
  ⟨41, "A 2 -2ab", "B 2 -2bc", 10846685515583613682562, true, ⟨⟨0, -1, 0, -1, 0, 0, 0, 0, -1⟩, ⟨0, 0, 0⟩, 1⟩, ⟨⟨0, -1, 0, -1, 0, 0, 0, 0, -1⟩, ⟨0, 0, 0⟩, 1⟩⟩,
  ⟨41, "A 2 -2ab", "B -2bc 2", 10846685515641864204290, true, ⟨⟨0, 0, -1, -1, 0, 0, 0, 1, 0⟩, ⟨0, 0, 0⟩, 1⟩, ⟨⟨0, -1, 0, 0, 0, 1, -1, 0, 0⟩, ⟨0, 0, 0⟩, 1⟩⟩,
  ⟨41, "A 2 -2ab", "C -2bc 2", 10846685515641864204291, true, ⟨⟨0, 0, -1, 0, -1, 0, -1, 0, 0⟩, ⟨0, 0, 0⟩, 1⟩, ⟨⟨0, 0, -1, 0, -1, 0, -1, 0, 0⟩, ⟨0, 0, 0⟩, 1⟩⟩,
  ⟨41, "A 2 -2ab", "C -2bc -2bc", 10846685515341216494691, true, ⟨⟨0, -1, 0, 0, 0, -1, 1, 0, 0⟩, ⟨0, 0, 0⟩, 1⟩, ⟨⟨0, 0, 1, -1, 0, 0, 0, -1, 0⟩, ⟨0, 0, 0⟩, 1⟩⟩,
  ⟨41, "A 2 -2ab", "A -2ac -2ac", 10846685515341216494689, true, ⟨⟨-1, 0, 0, 0, 0, -1, 0, -1, 0⟩, ⟨0, 0, 0⟩, 1⟩, ⟨⟨-1, 0, 0, 0, 0, -1, 0, -1, 0⟩, ⟨0, 0, 0⟩, 1⟩⟩,
  ⟨42, "F 2 -2", "F 2 -2", 242397332358, true, idM, idM⟩,
  ⟨42, "F 2 -2", "F -2 2", 300647854086, true, ⟨⟨0, 0, -1, -1, 0, 0, 0, 1, 0⟩, ⟨0, 0, 0⟩, 1⟩, ⟨⟨0, -1, 0, 0, 0, 1, -1, 0, 0⟩, ⟨0, 0, 0⟩, 1⟩⟩,
  ⟨42, "F 2 -2", "F -2 -2", 144486, true, ⟨⟨-1, 0, 0, 0, 0, -1, 0, -1, 0⟩, ⟨0, 0, 0⟩, 1⟩, ⟨⟨-1, 0, 0, 0, 0, -1, 0, -1, 0⟩, ⟨0, 0, 0⟩, 1⟩⟩,
  ⟨43, "F 2 -2yd", "F 2 -2yd", 774763251338198500230, true, idM, idM⟩,
  ⟨43, "F 2 -2yd", "F -2d 2", 774763251396449021958, true, ⟨⟨0, 0, -1, -1, 0, 0, 0, 1, 0⟩, ⟨0, 0, 0⟩, 1⟩, ⟨⟨0, -1, 0, 0, 0, 1, -1, 0, 0⟩, ⟨0, 0, 0⟩, 1⟩⟩,
  ⟨43, "F 2 -2yd", "F -2d -2d", 774763251095801312358, true, ⟨⟨-1, 0, 0, 0, 0, -1, 0, -1, 0⟩, ⟨3, 0, 3⟩, 1⟩, ⟨⟨-1, 0, 0, 0, 0, -1, 0, -1, 0⟩, ⟨3, 3, 0⟩, 1⟩⟩,
  ⟨44, "I 2 -2", "I 2 -2", 242397332356, true, idM, idM⟩,
  ⟨44, "I 2 -2", "I -2 2", 300647854084, true, ⟨⟨0, 0, -1, -1, 0, 0, 0, 1, 0⟩, ⟨0, 0, 0⟩, 1⟩, ⟨⟨0, -1, 0, 0, 0, 1, -1, 0, 0⟩, ⟨0, 0, 0⟩, 1⟩⟩,
  ⟨44, "I 2 -2", "I -2 -2", 144484, true, ⟨⟨-1, 0, 0, 0, 0, -1, 0, -1, 0⟩, ⟨0, 0, 0⟩, 1⟩, ⟨⟨-1, 0, 0, 0, 0, -1, 0, -1, 0⟩, ⟨0, 0, 0⟩, 1⟩⟩,
  ⟨45, "I 2 -2c", "I 2 -2c", 10846685515583613682564, true, idM, idM⟩,
  ⟨45, "I 2 -2c", "I -2a 2", 10071922264546063036420, true, ⟨⟨0, 0, -1, -1, 0, 0, 0, 1, 0⟩, ⟨0, 0, 0⟩, 1⟩, ⟨⟨0, -1, 0, 0, 0, 1, -1, 0, 0⟩, ⟨0, 0, 0⟩, 1⟩⟩,
  ⟨45, "I 2 -2c", "I -2b -2b", 774763251095801312356, true, ⟨⟨-1, 0, 0, 0, 0, -1, 0, -1, 0⟩, ⟨0, 0, 0⟩, 1⟩, ⟨⟨-1, 0, 0, 0, 0, -1, 0, -1, 0⟩, ⟨0, 0, 0⟩, 1⟩⟩,
  ⟨46, "I 2 -2a", "I 2 -2a", 10071922264487812514692, true, idM, idM⟩,
  ⟨46, "I 2 -2a", "I 2 -2b", 774763251338198500228, true, ⟨⟨0, -1, 0, -1, 0, 0, 0, 0, -1⟩, ⟨0, 0, 0⟩, 1⟩, ⟨⟨0, -1, 0, -1, 0, 0, 0, 0, -1⟩, ⟨0, 0, 0⟩, 1⟩⟩,
  ⟨46, "I 2 -2a", "I -2b 2", 774763251396449021956, true, ⟨⟨0, 0, -1, -1, 0, 0, 0, 1, 0⟩, ⟨0, 0, 0⟩, 1⟩, ⟨⟨0, -1, 0, 0, 0, 1, -1, 0, 0⟩, ⟨0, 0, 0⟩, 1⟩⟩,
  ⟨46, "I 2 -2a", "I -2c 2", 10846685515641864204292, true, ⟨⟨0, 0, -1, 0, -1, 0, -1, 0, 0⟩, ⟨0, 0, 0⟩, 1⟩, ⟨⟨0, 0, -1, 0, -1, 0, -1, 0, 0⟩, ⟨0, 0, 0⟩, 1⟩⟩,
  ⟨46, "I 2 -2a", "I -2c -2c", 10846685515341216494692, true, ⟨⟨0, -1, 0, 0, 0, -1, 1, 0, 0⟩, ⟨0, 0, 0⟩, 1⟩, ⟨⟨0, 0, 1, -1, 0, 0, 0, -1, 0⟩, ⟨0, 0, 0⟩, 1⟩⟩,
  ⟨46, "I 2 -2a", "I -2a -2a", 10071922264245415326820, true, ⟨⟨-1, 0, 0, 0, 0, -1, 0, -1, 0⟩, ⟨0, 0, 0⟩, 1⟩, ⟨⟨-1, 0, 0, 0, 0, -1, 0, -1, 0⟩, ⟨0, 0, 0⟩, 1⟩⟩,
  ⟨47, "-P 2 2", "-P 2 2", 302996665440, true, idM, idM⟩,
  ⟨48, "P 2 2 -1n", "P 2 2 -1n", 309923894756347069373494368, true, idM, idM⟩,
  ⟨48, "P 2 2 -1n", "-P 2ab 2bc", 309923894756347069373494368, true, ⟨⟨1, 0, 0, 0, 1, 0, 0, 0, 1⟩, ⟨3, 3, 3⟩, 1⟩, ⟨⟨1, 0, 0, 0, 1, 0, 0, 0, 1⟩, ⟨-3, -3, -3⟩, 1⟩⟩,
  ⟨49, "-P 2 2c", "-P 2 2c", 774763251398797833312, true, idM, idM⟩,
  ⟨49, "-P 2 2c", "-P 2a 2", 287795106778548796416734304, true, ⟨⟨0, 0, -1, -1, 0, 0, 0, 1, 0⟩, ⟨0, 0, 0⟩, 1⟩, ⟨⟨0, -1, 0, 0, 0, 1, -1, 0, 0⟩, ⟨0, 0, 0⟩, 1⟩⟩,
  ⟨49, "-P 2 2c", "-P 2b 2b", 22128013214547480152257632, true, ⟨⟨-1, 0, 0, 0, 0, -1, 0, -1, 0⟩, ⟨0, 0, 0⟩, 1⟩, ⟨⟨-1, 0, 0, 0, 0, -1, 0, -1, 0⟩, ⟨0, 0, 0⟩, 1⟩⟩,
  ⟨50, "P 2 2 -1ab", "P 2 2 -1ab", 309923119993095973572326496, true, idM, idM⟩,
  ⟨50, "P 2 2 -1ab", "-P 2ab 2b", 309923119993095973572326496, true, ⟨⟨1, 0, 0, 0, 1, 0, 0, 0, 1⟩, ⟨3, 3, 0⟩, 1⟩, ⟨⟨1, 0, 0, 0, 1, 0, 0, 0, 1⟩, ⟨-3, -3, 0⟩, 1⟩⟩,
  ⟨50, "P 2 2 -1ab", "P 2 2 -1bc", 22128787977798575953425504, true, ⟨⟨0, 0, -1, -1, 0, 0, 0, 1, 0⟩, ⟨0, 0, 0⟩, 1⟩, ⟨⟨0, -1, 0, 0, 0, 1, -1, 0, 0⟩, ⟨0, 0, 0⟩, 1⟩⟩,
  ⟨50, "P 2 2 -1ab", "-P 2b 2bc", 22128787977798575953425504, true, ⟨⟨0, 0, -1, -1, 0, 0, 0, 1, 0⟩, ⟨0, 3, 3⟩, 1⟩, ⟨⟨0, -1, 0, 0, 0, 1, -1, 0, 0⟩, ⟨3, -3, 0⟩, 1⟩⟩,
  ⟨50, "P 2 2 -1ab", "P 2 2 -1ac", 287795881541799892217902176, true, ⟨⟨-1, 0, 0, 0, 0, -1, 0, -1, 0⟩, ⟨0, 0, 0⟩, 1⟩, ⟨⟨-1, 0, 0, 0, 0, -1, 0, -1, 0⟩, ⟨0, 0, 0⟩, 1⟩⟩,
  ⟨50, "P 2 2 -1ab", "-P 2a 2c", 287795881541799892217902176, true, ⟨⟨-1, 0, 0, 0, 0, -1, 0, -1, 0⟩, ⟨3, 0, 3⟩, 1⟩, ⟨⟨-1, 0, 0, 0, 0, -1, 0, -1, 0⟩, ⟨3, 3, 0⟩, 1⟩⟩,
  ⟨51, "-P 2a 2a", "-P 2a 2a", 287664171789113606019363936, true, idM, idM⟩,
  ⟨51, "-P 2a 2a", "-P 2b 2", 22138085136811725567439968, true, ⟨⟨0, -1, 0, -1, 0, 0, 0, 0, -1⟩, ⟨0, 0, 0⟩, 1⟩, ⟨⟨0, -1, 0, -1, 0, 0, 0, 0, -1⟩, ⟨0, 0, 0⟩, 1⟩⟩,
  ⟨51, "-P 2a 2a", "-P 2 2b", 10071922264548411847776, true, ⟨⟨0, 0, -1, -1, 0, 0, 0, 1, 0⟩, ⟨0, 0, 0⟩, 1⟩, ⟨⟨0, -1, 0, 0, 0, 1, -1, 0, 0⟩, ⟨0, 0, 0⟩, 1⟩⟩,
  ⟨51, "-P 2a 2a", "-P 2c 2c", 1702154862657778162480224, true, ⟨⟨0, 0, -1, 0, -1, 0, -1, 0, 0⟩, ⟨0, 0, 0⟩, 1⟩, ⟨⟨0, 0, -1, 0, -1, 0, -1, 0, 0⟩, ⟨0, 0, 0⟩, 1⟩⟩,
  ⟨51, "-P 2a 2a", "-P 2c 2", 1702929625908873963648096, true, ⟨⟨0, -1, 0, 0, 0, -1, 1, 0, 0⟩, ⟨0, 0, 0⟩, 1⟩, ⟨⟨0, 0, 1, -1, 0, 0, 0, -1, 0⟩, ⟨0, 0, 0⟩, 1⟩⟩,
  ⟨51, "-P 2a 2a", "-P 2 2a", 130934989435493394035808, true, ⟨⟨-1, 0, 0, 0, 0, -1, 0, -1, 0⟩, ⟨0, 0, 0⟩, 1⟩, ⟨⟨-1, 0, 0, 0, 0, -1, 0, -1, 0⟩, ⟨0, 0, 0⟩, 1⟩⟩,
  ⟨52, "-P 2a 2bc", "-P 2a 2bc", 287805953464064137633084512, true, idM, idM⟩]

theorem rows03_ok : rows03.all (rowCheck functionals) = true := by decide +kernel

end Verif
