import Verif.Data.Functionals

/-! Generated by tools/gen_rows.py; checked by the kernel. -/

namespace Verif

/-- Rows of the tables. -/
def rows09 : List Row := [
  ⟨139, "-I 4 2", "-I 4 2", 326484857444, true, idM, idM⟩,
  ⟨140, "-I 4 2c", "-I 4 2c", 10071922264571900039780, true, idM, idM⟩,
  ⟨141, "I 4bw 2bw -1bw", "I 4bw 2bw -1bw", 774763251422286025316, true, idM, idM⟩,
  ⟨141, "I 4bw 2bw -1bw", "-I 4bd 2", 774763251422286025316, true, ⟨⟨2, 0, 0, 0, 2, 0, 0, 0, 2⟩, ⟨0, 6, 9⟩, 2⟩, ⟨⟨2, 0, 0, 0, 2, 0, 0, 0, 2⟩, ⟨0, -6, -9⟩, 2⟩⟩,
  ⟨142, "I 4bw 2aw -1bw", "I 4bw 2aw -1bw", 10846685515667701207652, true, idM, idM⟩,
  ⟨142, "I 4bw 2aw -1bw", "-I 4bd 2c", 10846685515667701207652, true, ⟨⟨2, 0, 0, 0, 2, 0, 0, 0, 2⟩, ⟨0, 6, 9⟩, 2⟩, ⟨⟨2, 0, 0, 0, 2, 0, 0, 0, 2⟩, ⟨0, -6, -9⟩, 2⟩⟩,
  ⟨143, "P 3", "P 3", 7696581512704, true, idM, idM⟩,
  ⟨144, "P 31", "P 31", 1033017675824316403200, true, idM, idM⟩,
  ⟨145, "P 32", "P 32", 516508841760448957952, true, idM, idM⟩,
  ⟨146, "R 3", "R 3", 7696581512709, true, idM, idM⟩,
  ⟨146, "R 3", "P 3*", 985162422272000, true, ⟨⟨-1, 0, -1, 0, 1, -1, 1, -1, -1⟩, ⟨0, 0, 0⟩, 1⟩, ⟨⟨-2, 1, 1, -1, 2, -1, -1, -1, -1⟩, ⟨0, 0, 0⟩, 3⟩⟩,
  ⟨147, "-P 3", "-P 3", 7712083660295, true, idM, idM⟩,
  ⟨148, "-R 3", "-R 3", 7712083660300, true, idM, idM⟩,
  ⟨148, "-R 3", "-P 3*", 127085952473088000, true, ⟨⟨-1, 0, -1, 0, 1, -1, 1, -1, -1⟩, ⟨0, 0, 0⟩, 1⟩, ⟨⟨-2, 1, 1, -1, 2, -1, -1, -1, -1⟩, ⟨0, 0, 0⟩, 3⟩⟩,
  ⟨149, "P 3 2", "P 3 2", 1008814046935371264, false, idM, idM⟩,
  ⟨150, "P 3 2\"", "P 3 2\"", 38482907094464, true, idM, idM⟩,
  ⟨151, "P 31 2c (0 0 1)", "P 31 2c (0 0 1)", 1034026482174670261760, false, idM, idM⟩,
  ⟨152, "P 31 2\"", "P 31 2\"", 1033017706610641984960, true, idM, idM⟩,
  ⟨153, "P 32 2c (0 0 -1)", "P 32 2c (0 0 -1)", 517517648110802816512, false, idM, idM⟩,
  ⟨154, "P 32 2\"", "P 32 2\"", 516508872546774539712, true, idM, idM⟩,
  ⟨155, "R 3 2\"", "R 3 2\"", 38482907094469, true, idM, idM⟩,
  ⟨155, "R 3 2\"", "P 3* 2", 253186745314033664, true, ⟨⟨-1, 0, -1, 0, 1, -1, 1, -1, -1⟩, ⟨0, 0, 0⟩, 1⟩, ⟨⟨-2, 1, 1, -1, 2, -1, -1, -1, -1⟩, ⟨0, 0, 0⟩, 3⟩⟩,
  ⟨156, "P 3 -2\"", "P 3 -2\"", 4035233097996946944, true, idM, idM⟩,
  ⟨157, "P 3 -2", "P 3 -2", 130841883839744, false, idM, idM⟩,
  ⟨158, "P 3 -2\"c", "P 3 -2\"c", 778798484193798114816, true, idM, idM⟩,
  ⟨159, "P 3 -2c", "P 3 -2c", 774763381937685007616, false, idM, idM⟩,
  ⟨160, "R 3 -2\"", "R 3 -2\"", 4035233097996946949, true, idM, idM⟩,
  ⟨160, "R 3 -2\"", "P 3* -2", 1477743690250240, true, ⟨⟨-1, 0, -1, 0, 1, -1, 1, -1, -1⟩, ⟨0, 0, 0⟩, 1⟩, ⟨⟨-2, 1, 1, -1, 2, -1, -1, -1, -1⟩, ⟨0, 0, 0⟩, 3⟩⟩,
  ⟨161, "R 3 -2\"c", "R 3 -2\"c", 778798484193798114821, true, idM, idM⟩,
  ⟨161, "R 3 -2\"c", "P 3* -2n", 774764728839491418112, true, ⟨⟨-1, 0, -1, 0, 1, -1, 1, -1, -1⟩, ⟨0, 0, 0⟩, 1⟩, ⟨⟨-2, 1, 1, -1, 2, -1, -1, -1, -1⟩, ⟨0, 0, 0⟩, 3⟩⟩,
  ⟨162, "-P 3 2", "-P 3 2", 1008937207739845895, false, idM, idM⟩,
  ⟨163, "-P 3 2c", "-P 3 2c", 775772188303541013767, false, idM, idM⟩,
  ⟨164, "-P 3 2\"", "-P 3 2\"", 4035263899824676295, true, idM, idM⟩,
  ⟨165, "-P 3 2\"c", "-P 3 2\"c", 778798514995625844167, true, idM, idM⟩,
  ⟨166, "-R 3 2\"", "-R 3 2\"", 4035263899824676300, true, idM, idM⟩,
  ⟨166, "-R 3 2\"", "-P 3* 2", 379780116632827904, true, ⟨⟨-1, 0, -1, 0, 1, -1, 1, -1, -1⟩, ⟨0, 0, 0⟩, 1⟩, ⟨⟨-2, 1, 1, -1, 2, -1, -1, -1, -1⟩, ⟨0, 0, 0⟩, 3⟩⟩]

theorem rows09_ok : rows09.all (rowCheck functionals) = true := by decide +kernel

end Verif
