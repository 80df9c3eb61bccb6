import Verif.Data.Functionals

/-! Generated by tools/gen_rows.py; checked by the kernel. -/

namespace Verif

/-- Rows of the tables. -/
def rows16 : List Row := [
  ⟨229, "-I 4 2 3", "-I 4 2 3", 542332853759490196, true, idM, idM⟩,
  ⟨230, "-I 4bd 2c 3", "-I 4bd 2c 3", 775305583949560658068, true, idM, idM⟩,
  ⟨24, "I 2ac 2ab", "I 2ac 2ab", 774763251157809873124, true, idM, idM⟩,
  ⟨67, "-C 2b 2", "-C 2a 2", 10071922264548411847779, true, idM, idM⟩,
  ⟨68, "C 2 2 -1bc", "-C 2b 2ac", 10846685515644213015651, true, ⟨⟨1, 0, 0, 0, 1, 0, 0, 0, 1⟩, ⟨0, 3, 3⟩, 1⟩, ⟨⟨1, 0, 0, 0, 1, 0, 0, 0, 1⟩, ⟨0, -3, -3⟩, 1⟩⟩,
  ⟨76, "P 4w", "P 41", 387381625553537900544, true, idM, idM⟩,
  ⟨78, "P 4cw", "P 43", 1162144876649339068416, true, idM, idM⟩,
  ⟨80, "I 4bw", "I 41b", 774763251101438484484, true, idM, idM⟩,
  ⟨91, "P 4w 2c", "P 41 2c", 387381625617425542880, true, idM, idM⟩,
  ⟨92, "P 4abw 2nw", "P 43n 2nw", 10459303889862840725216, true, idM, idM⟩,
  ⟨95, "P 4cw 2c", "P 43 2c", 1162144876713226710752, true, idM, idM⟩,
  ⟨96, "P 4nw 2abw", "P 41n 2abw", 11234067140958641893088, true, idM, idM⟩,
  ⟨98, "I 4bw 2bw", "I 41b 2bw", 774763251165326126820, true, idM, idM⟩,
  ⟨108, "I 4 -2c", "I 4 -2ab", 10071922264506603068292, true, idM, idM⟩,
  ⟨109, "I 4bw -2", "I 41b -2", 774763251356989053828, true, idM, idM⟩,
  ⟨110, "I 4bw -2c", "I 41b -2c", 10846685515602404236164, true, idM, idM⟩,
  ⟨228, "F 4d 2 3 -1cd", "-F 4ud 2vw 3", 10847227848194975840406, true, ⟨⟨2, 0, 0, 0, 2, 0, 0, 0, 2⟩, ⟨3, 3, 3⟩, 2⟩, ⟨⟨2, 0, 0, 0, 2, 0, 0, 0, 2⟩, ⟨-3, -3, -3⟩, 2⟩⟩]

theorem rows16_ok : rows16.all (rowCheck functionals) = true := by decide +kernel

end Verif
