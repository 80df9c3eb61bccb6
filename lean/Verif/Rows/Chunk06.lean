import Verif.Data.Functionals

/-! Generated by tools/gen_rows.py; checked by the kernel. -/

namespace Verif

/-- Rows of the tables. -/
def rows06 : List Row := [
  ⟨68, "C 2 2 -1bc", "-A 2a 2c", 141781674950834610386017, true, ⟨⟨0, 0, -1, -1, 0, 0, 0, 1, 0⟩, ⟨3, 0, 3⟩, 1⟩, ⟨⟨0, -1, 0, 0, 0, 1, -1, 0, 0⟩, ⟨0, -3, 3⟩, 1⟩⟩,
  ⟨68, "C 2 2 -1bc", "A 2 2 -1ac", 141781674950834610386017, true, ⟨⟨0, 0, -1, -1, 0, 0, 0, 1, 0⟩, ⟨0, 0, 0⟩, 1⟩, ⟨⟨0, -1, 0, 0, 0, 1, -1, 0, 0⟩, ⟨0, 0, 0⟩, 1⟩⟩,
  ⟨68, "C 2 2 -1bc", "-A 2ac 2c", 141781674950834610386017, true, ⟨⟨0, 0, -1, -1, 0, 0, 0, 1, 0⟩, ⟨3, 3, 0⟩, 1⟩, ⟨⟨0, -1, 0, 0, 0, 1, -1, 0, 0⟩, ⟨3, 0, 3⟩, 1⟩⟩,
  ⟨68, "C 2 2 -1bc", "B 2 2 -1bc", 131709752686589195203682, true, ⟨⟨-1, 0, 0, 0, 0, -1, 0, -1, 0⟩, ⟨0, 0, 0⟩, 1⟩, ⟨⟨-1, 0, 0, 0, 0, -1, 0, -1, 0⟩, ⟨0, 0, 0⟩, 1⟩⟩,
  ⟨68, "C 2 2 -1bc", "-B 2bc 2b", 131709752686589195203682, true, ⟨⟨-1, 0, 0, 0, 0, -1, 0, -1, 0⟩, ⟨3, 3, 0⟩, 1⟩, ⟨⟨-1, 0, 0, 0, 0, -1, 0, -1, 0⟩, ⟨3, 0, 3⟩, 1⟩⟩,
  ⟨68, "C 2 2 -1bc", "B 2 2 -1bc", 131709752686589195203682, true, ⟨⟨-1, 0, 0, 0, 0, -1, 0, -1, 0⟩, ⟨0, 0, 0⟩, 1⟩, ⟨⟨-1, 0, 0, 0, 0, -1, 0, -1, 0⟩, ⟨0, 0, 0⟩, 1⟩⟩,
  ⟨68, "C 2 2 -1bc", "-B 2b 2bc", 131709752686589195203682, true, ⟨⟨-1, 0, 0, 0, 0, -1, 0, -1, 0⟩, ⟨0, 3, 3⟩, 1⟩, ⟨⟨-1, 0, 0, 0, 0, -1, 0, -1, 0⟩, ⟨0, 3, 3⟩, 1⟩⟩,
  ⟨69, "-F 2 2", "-F 2 2", 302996665446, true, idM, idM⟩,
  ⟨70, "F 2 2 -1d", "F 2 2 -1d", 774763251398797833318, true, idM, idM⟩,
  ⟨70, "F 2 2 -1d", "-F 2uv 2vw", 774763251398797833318, true, ⟨⟨2, 0, 0, 0, 2, 0, 0, 0, 2⟩, ⟨9, 9, 9⟩, 2⟩, ⟨⟨2, 0, 0, 0, 2, 0, 0, 0, 2⟩, ⟨-9, -9, -9⟩, 2⟩⟩,
  ⟨71, "-I 2 2", "-I 2 2", 302996665444, true, idM, idM⟩,
  ⟨72, "-I 2 2c", "-I 2 2c", 10846685515644213015652, true, idM, idM⟩,
  ⟨72, "-I 2 2c", "-I 2a 2", 141781674950834610386020, true, ⟨⟨0, 0, -1, -1, 0, 0, 0, 1, 0⟩, ⟨0, 0, 0⟩, 1⟩, ⟨⟨0, -1, 0, 0, 0, 1, -1, 0, 0⟩, ⟨0, 0, 0⟩, 1⟩⟩,
  ⟨72, "-I 2 2c", "-I 2b 2b", 130934989435493394035812, true, ⟨⟨-1, 0, 0, 0, 0, -1, 0, -1, 0⟩, ⟨0, 0, 0⟩, 1⟩, ⟨⟨-1, 0, 0, 0, 0, -1, 0, -1, 0⟩, ⟨0, 0, 0⟩, 1⟩⟩,
  ⟨73, "-I 2b 2c", "-I 2b 2c", 141006911699738809218148, true, idM, idM⟩,
  ⟨73, "-I 2b 2c", "-I 2a 2b", 141006911699738809218148, true, ⟨⟨1, 0, 0, 0, 1, 0, 0, 0, 1⟩, ⟨3, 3, 3⟩, 1⟩, ⟨⟨1, 0, 0, 0, 1, 0, 0, 0, 1⟩, ⟨-3, -3, -3⟩, 1⟩⟩,
  ⟨74, "-I 2b 2", "-I 2b 2", 131709752686589195203684, true, idM, idM⟩,
  ⟨74, "-I 2b 2", "-I 2a 2a", 131709752686589195203684, true, ⟨⟨1, 0, 0, 0, 1, 0, 0, 0, 1⟩, ⟨3, 3, 3⟩, 1⟩, ⟨⟨1, 0, 0, 0, 1, 0, 0, 0, 1⟩, ⟨-3, -3, -3⟩, 1⟩⟩,
  ⟨74, "-I 2b 2", "-I 2c 2c", 774763251398797833316, true, ⟨⟨0, 0, -1, -1, 0, 0, 0, 1, 0⟩, ⟨0, 0, 0⟩, 1⟩, ⟨⟨0, -1, 0, 0, 0, 1, -1, 0, 0⟩, ⟨0, 0, 0⟩, 1⟩⟩,
  ⟨74, "-I 2b 2", "-I 2 2b", 774763251398797833316, true, ⟨⟨0, 0, -1, -1, 0, 0, 0, 1, 0⟩, ⟨3, 3, 3⟩, 1⟩, ⟨⟨0, -1, 0, 0, 0, 1, -1, 0, 0⟩, ⟨3, -3, 3⟩, 1⟩⟩,
  ⟨74, "-I 2b 2", "-I 2 2a", 10071922264548411847780, true, ⟨⟨-1, 0, 0, 0, 0, -1, 0, -1, 0⟩, ⟨3, 3, 3⟩, 1⟩, ⟨⟨-1, 0, 0, 0, 0, -1, 0, -1, 0⟩, ⟨3, 3, 3⟩, 1⟩⟩,
  ⟨74, "-I 2b 2", "-I 2c 2", 10071922264548411847780, true, ⟨⟨-1, 0, 0, 0, 0, -1, 0, -1, 0⟩, ⟨0, 0, 0⟩, 1⟩, ⟨⟨-1, 0, 0, 0, 0, -1, 0, -1, 0⟩, ⟨0, 0, 0⟩, 1⟩⟩,
  ⟨75, "P 4", "P 4", 5637316608, true, idM, idM⟩,
  ⟨76, "P 4w", "P 4w", 387381625553537900544, true, idM, idM⟩,
  ⟨77, "P 4c", "P 4c", 774763251101438484480, true, idM, idM⟩,
  ⟨78, "P 4cw", "P 4cw", 1162144876649339068416, true, idM, idM⟩,
  ⟨79, "I 4", "I 4", 5637316612, true, idM, idM⟩,
  ⟨80, "I 4bw", "I 4bw", 774763251101438484484, true, idM, idM⟩,
  ⟨81, "P -4", "P -4", 2818701312, true, idM, idM⟩,
  ⟨82, "I -4", "I -4", 2818701316, true, idM, idM⟩,
  ⟨83, "-P 4", "-P 4", 7046645760, true, idM, idM⟩,
  ⟨84, "-P 4c", "-P 4c", 774763251102847813632, true, idM, idM⟩,
  ⟨85, "P 4ab -1ab", "P 4ab -1ab", 10071922264252461828096, true, idM, idM⟩,
  ⟨85, "P 4ab -1ab", "-P 4a", 10071922264252461828096, true, ⟨⟨1, 0, 0, 0, 1, 0, 0, 0, 1⟩, ⟨3, 9, 0⟩, 1⟩, ⟨⟨1, 0, 0, 0, 1, 0, 0, 0, 1⟩, ⟨-3, -9, 0⟩, 1⟩⟩,
  ⟨86, "P 4n -1n", "P 4n -1n", 10846685515348262995968, true, idM, idM⟩,
  ⟨86, "P 4n -1n", "-P 4bc", 10846685515348262995968, true, ⟨⟨1, 0, 0, 0, 1, 0, 0, 0, 1⟩, ⟨3, 3, 3⟩, 1⟩, ⟨⟨1, 0, 0, 0, 1, 0, 0, 0, 1⟩, ⟨-3, -3, -3⟩, 1⟩⟩,
  ⟨87, "-I 4", "-I 4", 7046645764, true, idM, idM⟩,
  ⟨88, "I 4bw -1bw", "I 4bw -1bw", 774763251102847813636, true, idM, idM⟩,
  ⟨88, "I 4bw -1bw", "-I 4ad", 774763251102847813636, true, ⟨⟨2, 0, 0, 0, 2, 0, 0, 0, 2⟩, ⟨0, 18, 9⟩, 2⟩, ⟨⟨2, 0, 0, 0, 2, 0, 0, 0, 2⟩, ⟨0, -18, -9⟩, 2⟩⟩,
  ⟨89, "P 4 2", "P 4 2", 69524958944, true, idM, idM⟩,
  ⟨90, "P 4ab 2ab", "P 4ab 2ab", 10071922264314940141280, true, idM, idM⟩,
  ⟨91, "P 4w 2c", "P 4w 2c", 387381625617425542880, true, idM, idM⟩,
  ⟨92, "P 4abw 2nw", "P 4abw 2nw", 10459303889862840725216, true, idM, idM⟩,
  ⟨93, "P 4c 2", "P 4c 2", 774763251165326126816, true, idM, idM⟩]

theorem rows06_ok : rows06.all (rowCheck functionals) = true := by decide +kernel

end Verif
