import Verif.Data.Functionals

/-! Generated by tools/gen_rows.py; checked by the kernel. -/

namespace Verif

/-- Rows of the tables. -/
def rows02 : List Row := [
  ⟨15, "-C 2yc", "-I 2xc", 774763251156400587652, true, ⟨⟨0, -1, 0, -1, 0, -1, 1, 0, 0⟩, ⟨3, 3, 3⟩, 1⟩, ⟨⟨0, 0, 1, -1, 0, 0, 0, -1, -1⟩, ⟨-3, 3, 6⟩, 1⟩⟩,
  ⟨15, "-C 2yc", "-C 2xc", 774763251156400587651, true, ⟨⟨0, -1, 0, -1, 0, 0, 0, 0, -1⟩, ⟨0, 0, 0⟩, 1⟩, ⟨⟨0, -1, 0, -1, 0, 0, 0, 0, -1⟩, ⟨0, 0, 0⟩, 1⟩⟩,
  ⟨15, "-C 2yc", "-B 2xbc", 774763251156400587650, true, ⟨⟨0, -1, 0, 0, 0, -1, 1, 0, 0⟩, ⟨3, 0, 3⟩, 1⟩, ⟨⟨0, 0, 1, -1, 0, 0, 0, -1, 0⟩, ⟨-3, 3, 0⟩, 1⟩⟩,
  ⟨15, "-C 2yc", "-I 2xb", 774763251156400587652, true, ⟨⟨0, -1, 0, -1, 0, -1, 1, 0, 0⟩, ⟨0, 0, 0⟩, 1⟩, ⟨⟨0, 0, 1, -1, 0, 0, 0, -1, -1⟩, ⟨0, 0, 0⟩, 1⟩⟩,
  ⟨16, "P 2 2", "P 2 2", 62008705248, true, idM, idM⟩,
  ⟨17, "P 2c 2", "P 2c 2", 774763251157809873120, true, idM, idM⟩,
  ⟨17, "P 2c 2", "P 2a 2a", 130934989435252406075616, true, ⟨⟨0, 0, -1, -1, 0, 0, 0, 1, 0⟩, ⟨0, 0, 0⟩, 1⟩, ⟨⟨0, -1, 0, 0, 0, 1, -1, 0, 0⟩, ⟨0, 0, 0⟩, 1⟩⟩,
  ⟨17, "P 2c 2", "P 2 2b", 10071922264307423887584, true, ⟨⟨-1, 0, 0, 0, 0, -1, 0, -1, 0⟩, ⟨0, 3, 0⟩, 1⟩, ⟨⟨-1, 0, 0, 0, 0, -1, 0, -1, 0⟩, ⟨0, 0, 3⟩, 1⟩⟩,
  ⟨18, "P 2 2ab", "P 2 2ab", 141006911699497821257952, true, idM, idM⟩,
  ⟨18, "P 2 2ab", "P 2bc 2", 10846685515403225055456, true, ⟨⟨0, 0, -1, -1, 0, 0, 0, 1, 0⟩, ⟨0, 0, 0⟩, 1⟩, ⟨⟨0, -1, 0, 0, 0, 1, -1, 0, 0⟩, ⟨0, 0, 0⟩, 1⟩⟩,
  ⟨18, "P 2 2ab", "P 2ac 2ac", 131709752686348207243488, true, ⟨⟨-1, 0, 0, 0, 0, -1, 0, -1, 0⟩, ⟨0, 0, 0⟩, 1⟩, ⟨⟨-1, 0, 0, 0, 0, -1, 0, -1, 0⟩, ⟨0, 0, 0⟩, 1⟩⟩,
  ⟨19, "P 2ac 2ab", "P 2ac 2ab", 141781674950593622425824, true, idM, idM⟩,
  ⟨20, "C 2c 2", "C 2c 2", 774763251157809873123, true, idM, idM⟩,
  ⟨20, "C 2c 2", "A 2a 2a", 774763251157809873121, true, ⟨⟨0, 0, -1, -1, 0, 0, 0, 1, 0⟩, ⟨0, 0, 0⟩, 1⟩, ⟨⟨0, -1, 0, 0, 0, 1, -1, 0, 0⟩, ⟨0, 0, 0⟩, 1⟩⟩,
  ⟨20, "C 2c 2", "B 2 2b", 774763251157809873122, true, ⟨⟨-1, 0, 0, 0, 0, -1, 0, -1, 0⟩, ⟨0, 3, 0⟩, 1⟩, ⟨⟨-1, 0, 0, 0, 0, -1, 0, -1, 0⟩, ⟨0, 0, 3⟩, 1⟩⟩,
  ⟨21, "C 2 2", "C 2 2", 62008705251, true, idM, idM⟩,
  ⟨21, "C 2 2", "A 2 2", 62008705249, true, ⟨⟨0, 0, -1, -1, 0, 0, 0, 1, 0⟩, ⟨0, 0, 0⟩, 1⟩, ⟨⟨0, -1, 0, 0, 0, 1, -1, 0, 0⟩, ⟨0, 0, 0⟩, 1⟩⟩,
  ⟨21, "C 2 2", "B 2 2", 62008705250, true, ⟨⟨-1, 0, 0, 0, 0, -1, 0, -1, 0⟩, ⟨0, 0, 0⟩, 1⟩, ⟨⟨-1, 0, 0, 0, 0, -1, 0, -1, 0⟩, ⟨0, 0, 0⟩, 1⟩⟩,
  ⟨22, "F 2 2", "F 2 2", 62008705254, true, idM, idM⟩,
  ⟨23, "I 2 2", "I 2 2", 62008705252, true, idM, idM⟩,
  ⟨24, "I 2ac 2bc", "I 2ac 2bc", 62008705252, true, idM, idM⟩,
  ⟨25, "P 2 -2", "P 2 -2", 242397332352, true, idM, idM⟩,
  ⟨25, "P 2 -2", "P -2 2", 300647854080, true, ⟨⟨0, 0, -1, -1, 0, 0, 0, 1, 0⟩, ⟨0, 0, 0⟩, 1⟩, ⟨⟨0, -1, 0, 0, 0, 1, -1, 0, 0⟩, ⟨0, 0, 0⟩, 1⟩⟩,
  ⟨25, "P 2 -2", "P -2 -2", 144480, true, ⟨⟨-1, 0, 0, 0, 0, -1, 0, -1, 0⟩, ⟨0, 0, 0⟩, 1⟩, ⟨⟨-1, 0, 0, 0, 0, -1, 0, -1, 0⟩, ⟨0, 0, 0⟩, 1⟩⟩,
  ⟨26, "P 2c -2", "P 2c -2", 1702154862657717563147136, true, idM, idM⟩,
  ⟨26, "P 2c -2", "P 2c -2c", 1702929625908813364315008, true, ⟨⟨0, -1, 0, -1, 0, 0, 0, 0, -1⟩, ⟨0, 0, 0⟩, 1⟩, ⟨⟨0, -1, 0, -1, 0, 0, 0, 0, -1⟩, ⟨0, 0, 0⟩, 1⟩⟩,
  ⟨26, "P 2c -2", "P -2a 2a", 1702154862657775813668864, true, ⟨⟨0, 0, -1, -1, 0, 0, 0, 1, 0⟩, ⟨0, 0, 0⟩, 1⟩, ⟨⟨0, -1, 0, 0, 0, 1, -1, 0, 0⟩, ⟨0, 0, 0⟩, 1⟩⟩,
  ⟨26, "P 2c -2", "P -2 2a", 1833089852092966211039232, true, ⟨⟨0, 0, -1, 0, -1, 0, -1, 0, 0⟩, ⟨0, 0, 0⟩, 1⟩, ⟨⟨0, 0, -1, 0, -1, 0, -1, 0, 0⟩, ⟨0, 0, 0⟩, 1⟩⟩,
  ⟨26, "P 2c -2", "P -2 -2b", 1712226784921720581141600, true, ⟨⟨0, -1, 0, 0, 0, -1, 1, 0, 0⟩, ⟨0, 0, 0⟩, 1⟩, ⟨⟨0, 0, 1, -1, 0, 0, 0, -1, 0⟩, ⟨0, 0, 0⟩, 1⟩⟩,
  ⟨26, "P 2c -2", "P -2b -2", 1702154862657475165959264, true, ⟨⟨-1, 0, 0, 0, 0, -1, 0, -1, 0⟩, ⟨0, 0, 0⟩, 1⟩, ⟨⟨-1, 0, 0, 0, 0, -1, 0, -1, 0⟩, ⟨0, 0, 0⟩, 1⟩⟩,
  ⟨27, "P 2 -2c", "P 2 -2c", 774763251338198500224, true, idM, idM⟩,
  ⟨27, "P 2 -2c", "P -2a 2", 130934989435491045224448, true, ⟨⟨0, 0, -1, -1, 0, 0, 0, 1, 0⟩, ⟨0, 0, 0⟩, 1⟩, ⟨⟨0, -1, 0, 0, 0, 1, -1, 0, 0⟩, ⟨0, 0, 0⟩, 1⟩⟩,
  ⟨27, "P 2 -2c", "P -2b -2b", 10071922264245415326816, true, ⟨⟨-1, 0, 0, 0, 0, -1, 0, -1, 0⟩, ⟨0, 0, 0⟩, 1⟩, ⟨⟨-1, 0, 0, 0, 0, -1, 0, -1, 0⟩, ⟨0, 0, 0⟩, 1⟩⟩,
  ⟨28, "P 2 -2a", "P 2 -2a", 130934989435432794702720, true, idM, idM⟩,
  ⟨28, "P 2 -2a", "P 2 -2b", 10071922264487812514688, true, ⟨⟨0, -1, 0, -1, 0, 0, 0, 0, -1⟩, ⟨0, 0, 0⟩, 1⟩, ⟨⟨0, -1, 0, -1, 0, 0, 0, 0, -1⟩, ⟨0, 0, 0⟩, 1⟩⟩,
  ⟨28, "P 2 -2a", "P -2b 2", 10071922264546063036416, true, ⟨⟨0, 0, -1, -1, 0, 0, 0, 1, 0⟩, ⟨0, 0, 0⟩, 1⟩, ⟨⟨0, -1, 0, 0, 0, 1, -1, 0, 0⟩, ⟨0, 0, 0⟩, 1⟩⟩,
  ⟨28, "P 2 -2a", "P -2c 2", 774763251396449021952, true, ⟨⟨0, 0, -1, 0, -1, 0, -1, 0, 0⟩, ⟨0, 0, 0⟩, 1⟩, ⟨⟨0, 0, -1, 0, -1, 0, -1, 0, 0⟩, ⟨0, 0, 0⟩, 1⟩⟩,
  ⟨28, "P 2 -2a", "P -2c -2c", 774763251095801312352, true, ⟨⟨0, -1, 0, 0, 0, -1, 1, 0, 0⟩, ⟨0, 0, 0⟩, 1⟩, ⟨⟨0, 0, 1, -1, 0, 0, 0, -1, 0⟩, ⟨0, 0, 0⟩, 1⟩⟩,
  ⟨28, "P 2 -2a", "P -2a -2a", 130934989435190397514848, true, ⟨⟨-1, 0, 0, 0, 0, -1, 0, -1, 0⟩, ⟨0, 0, 0⟩, 1⟩, ⟨⟨-1, 0, 0, 0, 0, -1, 0, -1, 0⟩, ⟨0, 0, 0⟩, 1⟩⟩,
  ⟨29, "P 2c -2ac", "P 2c -2ac", 1833864615344003761685376, true, idM, idM⟩,
  ⟨29, "P 2c -2ac", "P 2c -2b", 1712226784921962978329472, true, ⟨⟨0, -1, 0, -1, 0, 0, 0, 0, -1⟩, ⟨0, 0, 0⟩, 1⟩, ⟨⟨0, -1, 0, -1, 0, 0, 0, 0, -1⟩, ⟨0, 0, 0⟩, 1⟩⟩,
  ⟨29, "P 2c -2ac", "P -2b 2a", 1843161774357211626221568, true, ⟨⟨0, 0, -1, -1, 0, 0, 0, 1, 0⟩, ⟨0, 0, 0⟩, 1⟩, ⟨⟨0, -1, 0, 0, 0, 1, -1, 0, 0⟩, ⟨0, 0, 0⟩, 1⟩⟩,
  ⟨29, "P 2c -2ac", "P -2ac 2a", 1702929625908871614836736, true, ⟨⟨0, 0, -1, 0, -1, 0, -1, 0, 0⟩, ⟨0, 0, 0⟩, 1⟩, ⟨⟨0, 0, -1, 0, -1, 0, -1, 0, 0⟩, ⟨0, 0, 0⟩, 1⟩⟩,
  ⟨29, "P 2c -2ac", "P -2bc -2c", 1702929625908570967127136, true, ⟨⟨0, -1, 0, 0, 0, -1, 1, 0, 0⟩, ⟨0, 0, 0⟩, 1⟩, ⟨⟨0, 0, 1, -1, 0, 0, 0, -1, 0⟩, ⟨0, 0, 0⟩, 1⟩⟩,
  ⟨29, "P 2c -2ac", "P -2a -2ab", 1843161774356910978511968, true, ⟨⟨-1, 0, 0, 0, 0, -1, 0, -1, 0⟩, ⟨0, 0, 0⟩, 1⟩, ⟨⟨-1, 0, 0, 0, 0, -1, 0, -1, 0⟩, ⟨0, 0, 0⟩, 1⟩⟩,
  ⟨30, "P 2 -2bc", "P 2 -2bc", 10846685515583613682560, true, idM, idM⟩,
  ⟨30, "P 2 -2bc", "P 2 -2ac", 131709752686528595870592, true, ⟨⟨0, -1, 0, -1, 0, 0, 0, 0, -1⟩, ⟨0, 0, 0⟩, 1⟩, ⟨⟨0, -1, 0, -1, 0, 0, 0, 0, -1⟩, ⟨0, 0, 0⟩, 1⟩⟩,
  ⟨30, "P 2 -2bc", "P -2ac 2", 131709752686586846392320, true, ⟨⟨0, 0, -1, -1, 0, 0, 0, 1, 0⟩, ⟨0, 0, 0⟩, 1⟩, ⟨⟨0, -1, 0, 0, 0, 1, -1, 0, 0⟩, ⟨0, 0, 0⟩, 1⟩⟩,
  ⟨30, "P 2 -2bc", "P -2ab 2", 141006911699736460406784, true, ⟨⟨0, 0, -1, 0, -1, 0, -1, 0, 0⟩, ⟨0, 0, 0⟩, 1⟩, ⟨⟨0, 0, -1, 0, -1, 0, -1, 0, 0⟩, ⟨0, 0, 0⟩, 1⟩⟩,
  ⟨30, "P 2 -2bc", "P -2ab -2ab", 141006911699435812697184, true, ⟨⟨0, -1, 0, 0, 0, -1, 1, 0, 0⟩, ⟨0, 0, 0⟩, 1⟩, ⟨⟨0, 0, 1, -1, 0, 0, 0, -1, 0⟩, ⟨0, 0, 0⟩, 1⟩⟩,
  ⟨30, "P 2 -2bc", "P -2bc -2bc", 10846685515341216494688, true, ⟨⟨-1, 0, 0, 0, 0, -1, 0, -1, 0⟩, ⟨0, 0, 0⟩, 1⟩, ⟨⟨-1, 0, 0, 0, 0, -1, 0, -1, 0⟩, ⟨0, 0, 0⟩, 1⟩⟩,
  ⟨31, "P 2ac -2", "P 2ac -2", 1833089852092907960517504, true, idM, idM⟩,
  ⟨31, "P 2ac -2", "P 2bc -2bc", 1713001548173058779497344, true, ⟨⟨0, -1, 0, -1, 0, 0, 0, 0, -1⟩, ⟨0, 0, 0⟩, 1⟩, ⟨⟨0, -1, 0, -1, 0, 0, 0, 0, -1⟩, ⟨0, 0, 0⟩, 1⟩⟩,
  ⟨31, "P 2ac -2", "P -2ab 2ab", 1712226784922021228851200, true, ⟨⟨0, 0, -1, -1, 0, 0, 0, 1, 0⟩, ⟨0, 0, 0⟩, 1⟩, ⟨⟨0, -1, 0, 0, 0, 1, -1, 0, 0⟩, ⟨0, 0, 0⟩, 1⟩⟩,
  ⟨31, "P 2ac -2", "P -2 2ac", 1833864615344062012207104, true, ⟨⟨0, 0, -1, 0, -1, 0, -1, 0, 0⟩, ⟨0, 0, 0⟩, 1⟩, ⟨⟨0, 0, -1, 0, -1, 0, -1, 0, 0⟩, ⟨0, 0, 0⟩, 1⟩⟩,
  ⟨31, "P 2ac -2", "P -2 -2bc", 1713001548172816382309472, true, ⟨⟨0, -1, 0, 0, 0, -1, 1, 0, 0⟩, ⟨0, 0, 0⟩, 1⟩, ⟨⟨0, 0, 1, -1, 0, 0, 0, -1, 0⟩, ⟨0, 0, 0⟩, 1⟩⟩,
  ⟨31, "P 2ac -2", "P -2ab -2", 1833089852092665563329632, true, ⟨⟨-1, 0, 0, 0, 0, -1, 0, -1, 0⟩, ⟨0, 0, 0⟩, 1⟩, ⟨⟨-1, 0, 0, 0, 0, -1, 0, -1, 0⟩, ⟨0, 0, 0⟩, 1⟩⟩,
  ⟨32, "P 2 -2ab", "P 2 -2ab", 141006911699678209885056, true, idM, idM⟩,
  ⟨32, "P 2 -2ab", "P -2bc 2", 10846685515641864204288, true, ⟨⟨0, 0, -1, -1, 0, 0, 0, 1, 0⟩, ⟨0, 0, 0⟩, 1⟩, ⟨⟨0, -1, 0, 0, 0, 1, -1, 0, 0⟩, ⟨0, 0, 0⟩, 1⟩⟩,
  ⟨32, "P 2 -2ab", "P -2ac -2ac", 131709752686286198682720, true, ⟨⟨-1, 0, 0, 0, 0, -1, 0, -1, 0⟩, ⟨0, 0, 0⟩, 1⟩, ⟨⟨-1, 0, 0, 0, 0, -1, 0, -1, 0⟩, ⟨0, 0, 0⟩, 1⟩⟩,
  ⟨33, "P 2c -2n", "P 2c -2n", 1843936537608249176867712, true, idM, idM⟩,
  ⟨33, "P 2c -2n", "P 2c -2ab", 1843161774357153375699840, true, ⟨⟨0, -1, 0, -1, 0, 0, 0, 0, -1⟩, ⟨0, 0, 0⟩, 1⟩, ⟨⟨0, -1, 0, -1, 0, 0, 0, 0, -1⟩, ⟨0, 0, 0⟩, 1⟩⟩,
  ⟨33, "P 2c -2n", "P -2bc 2a", 1843936537608307427389440, true, ⟨⟨0, 0, -1, -1, 0, 0, 0, 1, 0⟩, ⟨0, 0, 0⟩, 1⟩, ⟨⟨0, -1, 0, 0, 0, 1, -1, 0, 0⟩, ⟨0, 0, 0⟩, 1⟩⟩,
  ⟨33, "P 2c -2n", "P -2n 2a", 1713001548173117030019072, true, ⟨⟨0, 0, -1, 0, -1, 0, -1, 0, 0⟩, ⟨0, 0, 0⟩, 1⟩, ⟨⟨0, 0, -1, 0, -1, 0, -1, 0, 0⟩, ⟨0, 0, 0⟩, 1⟩⟩,
  ⟨33, "P 2c -2n", "P -2n -2ac", 1833864615343761364497504, true, ⟨⟨0, -1, 0, 0, 0, -1, 1, 0, 0⟩, ⟨0, 0, 0⟩, 1⟩, ⟨⟨0, 0, 1, -1, 0, 0, 0, -1, 0⟩, ⟨0, 0, 0⟩, 1⟩⟩,
  ⟨33, "P 2c -2n", "P -2ac -2n", 1843936537608006779679840, true, ⟨⟨-1, 0, 0, 0, 0, -1, 0, -1, 0⟩, ⟨0, 0, 0⟩, 1⟩, ⟨⟨-1, 0, 0, 0, 0, -1, 0, -1, 0⟩, ⟨0, 0, 0⟩, 1⟩⟩,
  ⟨34, "P 2 -2n", "P 2 -2n", 141781674950774011052928, true, idM, idM⟩,
  ⟨34, "P 2 -2n", "P -2n 2", 141781674950832261574656, true, ⟨⟨0, 0, -1, -1, 0, 0, 0, 1, 0⟩, ⟨0, 0, 0⟩, 1⟩, ⟨⟨0, -1, 0, 0, 0, 1, -1, 0, 0⟩, ⟨0, 0, 0⟩, 1⟩⟩,
  ⟨34, "P 2 -2n", "P -2n -2n", 141781674950531613865056, true, ⟨⟨-1, 0, 0, 0, 0, -1, 0, -1, 0⟩, ⟨0, 0, 0⟩, 1⟩, ⟨⟨-1, 0, 0, 0, 0, -1, 0, -1, 0⟩, ⟨0, 0, 0⟩, 1⟩⟩,
  ⟨35, "C 2 -2", "C 2 -2", 242397332355, true, idM, idM⟩,
  ⟨35, "C 2 -2", "A -2 2", 300647854081, true, ⟨⟨0, 0, -1, -1, 0, 0, 0, 1, 0⟩, ⟨0, 0, 0⟩, 1⟩, ⟨⟨0, -1, 0, 0, 0, 1, -1, 0, 0⟩, ⟨0, 0, 0⟩, 1⟩⟩,
  ⟨35, "C 2 -2", "B -2 -2", 144482, true, ⟨⟨-1, 0, 0, 0, 0, -1, 0, -1, 0⟩, ⟨0, 0, 0⟩, 1⟩, ⟨⟨-1, 0, 0, 0, 0, -1, 0, -1, 0⟩, ⟨0, 0, 0⟩, 1⟩⟩,
  ⟨36, "C 2c -2", "C 2c -2", 774763251338198500227, true, idM, idM⟩,
  ⟨36, "C 2c -2", "C 2c -2c", 10846685515583613682563, true, ⟨⟨0, -1, 0, -1, 0, 0, 0, 0, -1⟩, ⟨0, 0, 0⟩, 1⟩, ⟨⟨0, -1, 0, -1, 0, 0, 0, 0, -1⟩, ⟨0, 0, 0⟩, 1⟩⟩,
  ⟨36, "C 2c -2", "A -2a 2a", 774763251396449021953, true, ⟨⟨0, 0, -1, -1, 0, 0, 0, 1, 0⟩, ⟨0, 0, 0⟩, 1⟩, ⟨⟨0, -1, 0, 0, 0, 1, -1, 0, 0⟩, ⟨0, 0, 0⟩, 1⟩⟩,
  ⟨36, "C 2c -2", "A -2 2a", 10846685515641864204289, true, ⟨⟨0, 0, -1, 0, -1, 0, -1, 0, 0⟩, ⟨0, 0, 0⟩, 1⟩, ⟨⟨0, 0, -1, 0, -1, 0, -1, 0, 0⟩, ⟨0, 0, 0⟩, 1⟩⟩,
  ⟨36, "C 2c -2", "B -2 -2b", 10846685515341216494690, true, ⟨⟨0, -1, 0, 0, 0, -1, 1, 0, 0⟩, ⟨0, 0, 0⟩, 1⟩, ⟨⟨0, 0, 1, -1, 0, 0, 0, -1, 0⟩, ⟨0, 0, 0⟩, 1⟩⟩,
  ⟨36, "C 2c -2", "B -2b -2", 774763251095801312354, true, ⟨⟨-1, 0, 0, 0, 0, -1, 0, -1, 0⟩, ⟨0, 0, 0⟩, 1⟩, ⟨⟨-1, 0, 0, 0, 0, -1, 0, -1, 0⟩, ⟨0, 0, 0⟩, 1⟩⟩,
  ⟨37, "C 2 -2c", "C 2 -2c", 10071922264487812514691, true, idM, idM⟩,
  ⟨37, "C 2 -2c", "A -2a 2", 10071922264546063036417, true, ⟨⟨0, 0, -1, -1, 0, 0, 0, 1, 0⟩, ⟨0, 0, 0⟩, 1⟩, ⟨⟨0, -1, 0, 0, 0, 1, -1, 0, 0⟩, ⟨0, 0, 0⟩, 1⟩⟩]

theorem rows02_ok : rows02.all (rowCheck functionals) = true := by decide +kernel

end Verif
