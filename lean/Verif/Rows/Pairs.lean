import Verif.Proofs.RowCheck

/-! Generated by tools/gen_rows.py; checked by the kernel. -/

namespace Verif

/-- Symbols listed under the same code in the two tables, when they differ, with the change of origin. -/
def tablePairs : List Pair := [
  ⟨"P 2 2 -1n", "-P 2ab 2bc", ⟨⟨1, 0, 0, 0, 1, 0, 0, 0, 1⟩, ⟨3, 3, 3⟩, 1⟩, ⟨⟨1, 0, 0, 0, 1, 0, 0, 0, 1⟩, ⟨-3, -3, -3⟩, 1⟩⟩,
  ⟨"P 2 2 -1ab", "-P 2ab 2b", ⟨⟨1, 0, 0, 0, 1, 0, 0, 0, 1⟩, ⟨3, 3, 0⟩, 1⟩, ⟨⟨1, 0, 0, 0, 1, 0, 0, 0, 1⟩, ⟨-3, -3, 0⟩, 1⟩⟩,
  ⟨"P 2 2ab -1ab", "-P 2ab 2a", ⟨⟨1, 0, 0, 0, 1, 0, 0, 0, 1⟩, ⟨3, 3, 0⟩, 1⟩, ⟨⟨1, 0, 0, 0, 1, 0, 0, 0, 1⟩, ⟨-3, -3, 0⟩, 1⟩⟩,
  ⟨"-C 2b 2", "-C 2a 2", idM, idM⟩,
  ⟨"C 2 2 -1bc", "-C 2b 2ac", ⟨⟨1, 0, 0, 0, 1, 0, 0, 0, 1⟩, ⟨0, 3, 3⟩, 1⟩, ⟨⟨1, 0, 0, 0, 1, 0, 0, 0, 1⟩, ⟨0, -3, -3⟩, 1⟩⟩,
  ⟨"F 2 2 -1d", "-F 2uv 2vw", ⟨⟨2, 0, 0, 0, 2, 0, 0, 0, 2⟩, ⟨9, 9, 9⟩, 2⟩, ⟨⟨2, 0, 0, 0, 2, 0, 0, 0, 2⟩, ⟨-9, -9, -9⟩, 2⟩⟩,
  ⟨"P 4w", "P 41", idM, idM⟩,
  ⟨"P 4cw", "P 43", idM, idM⟩,
  ⟨"I 4bw", "I 41b", idM, idM⟩,
  ⟨"P 4ab -1ab", "-P 4a", ⟨⟨1, 0, 0, 0, 1, 0, 0, 0, 1⟩, ⟨3, 9, 0⟩, 1⟩, ⟨⟨1, 0, 0, 0, 1, 0, 0, 0, 1⟩, ⟨-3, -9, 0⟩, 1⟩⟩,
  ⟨"P 4n -1n", "-P 4bc", ⟨⟨1, 0, 0, 0, 1, 0, 0, 0, 1⟩, ⟨3, 3, 3⟩, 1⟩, ⟨⟨1, 0, 0, 0, 1, 0, 0, 0, 1⟩, ⟨-3, -3, -3⟩, 1⟩⟩,
  ⟨"I 4bw -1bw", "-I 4ad", ⟨⟨2, 0, 0, 0, 2, 0, 0, 0, 2⟩, ⟨0, 18, 9⟩, 2⟩, ⟨⟨2, 0, 0, 0, 2, 0, 0, 0, 2⟩, ⟨0, -18, -9⟩, 2⟩⟩,
  ⟨"P 4w 2c", "P 41 2c", idM, idM⟩,
  ⟨"P 4abw 2nw", "P 43n 2nw", idM, idM⟩,
  ⟨"P 4cw 2c", "P 43 2c", idM, idM⟩,
  ⟨"P 4nw 2abw", "P 41n 2abw", idM, idM⟩,
  ⟨"I 4bw 2bw", "I 41b 2bw", idM, idM⟩,
  ⟨"I 4 -2c", "I 4 -2ab", idM, idM⟩,
  ⟨"I 4bw -2", "I 41b -2", idM, idM⟩,
  ⟨"I 4bw -2c", "I 41b -2c", idM, idM⟩,
  ⟨"P 4 2 -1ab", "-P 4a 2b", ⟨⟨1, 0, 0, 0, 1, 0, 0, 0, 1⟩, ⟨3, 3, 0⟩, 1⟩, ⟨⟨1, 0, 0, 0, 1, 0, 0, 0, 1⟩, ⟨-3, -3, 0⟩, 1⟩⟩,
  ⟨"P 4 2 -1n", "-P 4a 2bc", ⟨⟨1, 0, 0, 0, 1, 0, 0, 0, 1⟩, ⟨3, 3, 3⟩, 1⟩, ⟨⟨1, 0, 0, 0, 1, 0, 0, 0, 1⟩, ⟨-3, -3, -3⟩, 1⟩⟩,
  ⟨"P 4ab 2ab -1ab", "-P 4a 2a", ⟨⟨1, 0, 0, 0, 1, 0, 0, 0, 1⟩, ⟨3, 9, 0⟩, 1⟩, ⟨⟨1, 0, 0, 0, 1, 0, 0, 0, 1⟩, ⟨-3, -9, 0⟩, 1⟩⟩,
  ⟨"P 4ab 2n -1ab", "-P 4a 2ac", ⟨⟨1, 0, 0, 0, 1, 0, 0, 0, 1⟩, ⟨3, 9, 0⟩, 1⟩, ⟨⟨1, 0, 0, 0, 1, 0, 0, 0, 1⟩, ⟨-3, -9, 0⟩, 1⟩⟩,
  ⟨"P 4n 2c -1n", "-P 4ac 2b", ⟨⟨1, 0, 0, 0, 1, 0, 0, 0, 1⟩, ⟨3, 9, 3⟩, 1⟩, ⟨⟨1, 0, 0, 0, 1, 0, 0, 0, 1⟩, ⟨-3, -9, -3⟩, 1⟩⟩,
  ⟨"P 4n 2 -1n", "-P 4ac 2bc", ⟨⟨1, 0, 0, 0, 1, 0, 0, 0, 1⟩, ⟨3, 9, 3⟩, 1⟩, ⟨⟨1, 0, 0, 0, 1, 0, 0, 0, 1⟩, ⟨-3, -9, -3⟩, 1⟩⟩,
  ⟨"P 4n 2n -1n", "-P 4ac 2a", ⟨⟨1, 0, 0, 0, 1, 0, 0, 0, 1⟩, ⟨3, 9, 3⟩, 1⟩, ⟨⟨1, 0, 0, 0, 1, 0, 0, 0, 1⟩, ⟨-3, -9, -3⟩, 1⟩⟩,
  ⟨"P 4n 2ab -1n", "-P 4ac 2ac", ⟨⟨1, 0, 0, 0, 1, 0, 0, 0, 1⟩, ⟨3, 9, 3⟩, 1⟩, ⟨⟨1, 0, 0, 0, 1, 0, 0, 0, 1⟩, ⟨-3, -9, -3⟩, 1⟩⟩,
  ⟨"I 4bw 2bw -1bw", "-I 4bd 2", ⟨⟨2, 0, 0, 0, 2, 0, 0, 0, 2⟩, ⟨0, 6, 9⟩, 2⟩, ⟨⟨2, 0, 0, 0, 2, 0, 0, 0, 2⟩, ⟨0, -6, -9⟩, 2⟩⟩,
  ⟨"I 4bw 2aw -1bw", "-I 4bd 2c", ⟨⟨2, 0, 0, 0, 2, 0, 0, 0, 2⟩, ⟨0, 6, 9⟩, 2⟩, ⟨⟨2, 0, 0, 0, 2, 0, 0, 0, 2⟩, ⟨0, -6, -9⟩, 2⟩⟩,
  ⟨"P 2 2 3 -1n", "-P 2ab 2bc 3", ⟨⟨1, 0, 0, 0, 1, 0, 0, 0, 1⟩, ⟨3, 3, 3⟩, 1⟩, ⟨⟨1, 0, 0, 0, 1, 0, 0, 0, 1⟩, ⟨-3, -3, -3⟩, 1⟩⟩,
  ⟨"F 2 2 3 -1d", "-F 2uv 2vw 3", ⟨⟨2, 0, 0, 0, 2, 0, 0, 0, 2⟩, ⟨9, 9, 9⟩, 2⟩, ⟨⟨2, 0, 0, 0, 2, 0, 0, 0, 2⟩, ⟨-9, -9, -9⟩, 2⟩⟩,
  ⟨"P 4 2 3 -1n", "-P 4a 2bc 3", ⟨⟨1, 0, 0, 0, 1, 0, 0, 0, 1⟩, ⟨3, 3, 3⟩, 1⟩, ⟨⟨1, 0, 0, 0, 1, 0, 0, 0, 1⟩, ⟨-3, -3, -3⟩, 1⟩⟩,
  ⟨"P 4n 2 3 -1n", "-P 4bc 2bc 3", ⟨⟨1, 0, 0, 0, 1, 0, 0, 0, 1⟩, ⟨3, 3, 3⟩, 1⟩, ⟨⟨1, 0, 0, 0, 1, 0, 0, 0, 1⟩, ⟨-3, -3, -3⟩, 1⟩⟩,
  ⟨"F 4d 2 3 -1d", "-F 4vw 2vw 3", ⟨⟨2, 0, 0, 0, 2, 0, 0, 0, 2⟩, ⟨9, 9, 9⟩, 2⟩, ⟨⟨2, 0, 0, 0, 2, 0, 0, 0, 2⟩, ⟨-9, -9, -9⟩, 2⟩⟩,
  ⟨"F 4d 2 3 -1cd", "-F 4ud 2vw 3", ⟨⟨2, 0, 0, 0, 2, 0, 0, 0, 2⟩, ⟨3, 3, 3⟩, 2⟩, ⟨⟨2, 0, 0, 0, 2, 0, 0, 0, 2⟩, ⟨-3, -3, -3⟩, 2⟩⟩]

theorem tablePairs_ok : tablePairs.all pairCheck = true := by decide +kernel

/-- Other pairs of symbols. -/
def otherPairs : List Pair := [
  ⟨"I 2 2", "I 2ac 2bc", ⟨⟨1, 0, 0, 0, 1, 0, 0, 0, 1⟩, ⟨0, 3, 3⟩, 1⟩, ⟨⟨1, 0, 0, 0, 1, 0, 0, 0, 1⟩, ⟨0, -3, -3⟩, 1⟩⟩,
  ⟨"I 2b 2c", "I 2ac 2ab", idM, idM⟩,
  ⟨"A 2 -2c", "A 2 -2b", idM, idM⟩,
  ⟨"A 2 -2ac", "A 2 -2ab", idM, idM⟩,
  ⟨"F 2 -2d", "F 2 -2yd", idM, idM⟩]

theorem otherPairs_ok : otherPairs.all pairCheck = true := by decide +kernel

end Verif
