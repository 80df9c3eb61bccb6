import Verif.Data.Functionals

/-! Generated by tools/gen_rows.py; checked by the kernel. -/

namespace Verif

/-- Rows of the tables. -/
def rows07 : List Row := [
  ⟨94, "P 4n 2n", "P 4n 2n", 10846685515410741309152, true, idM, idM⟩,
  ⟨95, "P 4cw 2c", "P 4cw 2c", 1162144876713226710752, true, idM, idM⟩,
  ⟨96, "P 4nw 2abw", "P 4nw 2abw", 11234067140958641893088, true, idM, idM⟩,
  ⟨97, "I 4 2", "I 4 2", 69524958948, true, idM, idM⟩,
  ⟨98, "I 4bw 2bw", "I 4bw 2bw", 774763251165326126820, true, idM, idM⟩,
  ⟨99, "P 4 -2", "P 4 -2", 261187885952, true, idM, idM⟩,
  ⟨100, "P 4 -2ab", "P 4 -2ab", 10071922264506603068288, true, idM, idM⟩,
  ⟨101, "P 4c -2c", "P 4c -2c", 130934989435451585256320, true, idM, idM⟩,
  ⟨102, "P 4n -2n", "P 4n -2n", 141006911699697000438656, true, idM, idM⟩,
  ⟨103, "P 4 -2c", "P 4 -2c", 131709752686547386424192, true, idM, idM⟩,
  ⟨104, "P 4 -2n", "P 4 -2n", 141781674950792801606528, true, idM, idM⟩,
  ⟨105, "P 4c -2", "P 4c -2", 774763251356989053824, true, idM, idM⟩,
  ⟨106, "P 4c -2ab", "P 4c -2ab", 10846685515602404236160, true, idM, idM⟩,
  ⟨107, "I 4 -2", "I 4 -2", 261187885956, true, idM, idM⟩,
  ⟨108, "I 4 -2c", "I 4 -2c", 10071922264506603068292, true, idM, idM⟩,
  ⟨109, "I 4bw -2", "I 4bw -2", 774763251356989053828, true, idM, idM⟩,
  ⟨110, "I 4bw -2c", "I 4bw -2c", 10846685515602404236164, true, idM, idM⟩,
  ⟨111, "P -4 2", "P -4 2", 77980643552, true, idM, idM⟩,
  ⟨112, "P -4 2c", "P -4 2c", 774763251173781811424, true, idM, idM⟩,
  ⟨113, "P -4 2ab", "P -4 2ab", 10071922264323395825888, true, idM, idM⟩,
  ⟨114, "P -4 2n", "P -4 2n", 10846685515419196993760, true, idM, idM⟩,
  ⟨115, "P -4 -2", "P -4 -2", 247094970752, true, idM, idM⟩,
  ⟨116, "P -4 -2c", "P -4 -2c", 774763251342896138624, true, idM, idM⟩,
  ⟨117, "P -4 -2ab", "P -4 -2ab", 10071922264492510153088, true, idM, idM⟩,
  ⟨118, "P -4 -2n", "P -4 -2n", 10846685515588311320960, true, idM, idM⟩,
  ⟨119, "I -4 -2", "I -4 -2", 247094970756, true, idM, idM⟩,
  ⟨120, "I -4 -2c", "I -4 -2c", 774763251342896138628, true, idM, idM⟩,
  ⟨121, "I -4 2", "I -4 2", 77980643556, true, idM, idM⟩,
  ⟨122, "I -4 2bw", "I -4 2bw", 774763251173781811428, true, idM, idM⟩,
  ⟨123, "-P 4 2", "-P 4 2", 326484857440, true, idM, idM⟩,
  ⟨124, "-P 4 2c", "-P 4 2c", 10846685515667701207648, true, idM, idM⟩,
  ⟨125, "P 4 2 -1ab", "P 4 2 -1ab", 1702154862657801650672224, true, idM, idM⟩,
  ⟨125, "P 4 2 -1ab", "-P 4a 2b", 1702154862657801650672224, true, ⟨⟨1, 0, 0, 0, 1, 0, 0, 0, 1⟩, ⟨3, 3, 0⟩, 1⟩, ⟨⟨1, 0, 0, 0, 1, 0, 0, 0, 1⟩, ⟨-3, -3, 0⟩, 1⟩⟩,
  ⟨126, "P 4 2 -1n", "P 4 2 -1n", 1713001548173142867022432, true, idM, idM⟩]

theorem rows07_ok : rows07.all (rowCheck functionals) = true := by decide +kernel

end Verif
