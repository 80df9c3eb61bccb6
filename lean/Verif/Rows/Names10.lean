import Verif.Proofs.NameCheck

/-! Generated by tools/gen_names.py; checked by the kernel. -/

namespace Verif.HM

/-- Rows with their names. -/
def names10 : List NameRow := [
  ⟨"-I 4 2 3", "I m -3 m", true, 17609370107904, 524288⟩,
  ⟨"-I 4bd 2c 3", "I a -3 d", true, 17600776503296, 4194304⟩,
  ⟨"I 2ac 2ab", "I 21 21 21", true, 137472507906, 0⟩,
  ⟨"-C 2a 2", "C m m a   ", true, 2199560650752, 549894225920⟩,
  ⟨"-C 2b 2ac", "C c c a:1 ", true, 549890555904, 2199564320768⟩,
  ⟨"P 41", "P 41      ", true, 64, 416⟩,
  ⟨"P 43", "P 43      ", true, 256, 224⟩,
  ⟨"I 41b", "I 41      ", true, 64, 32⟩,
  ⟨"P 41 2c", "P 41 2 2  ", true, 70866960448, 137438953888⟩,
  ⟨"P 43n 2nw", "P 41 21 2 ", true, 139586437184, 68719477120⟩,
  ⟨"P 43 2c", "P 43 2 2  ", true, 70866960640, 137438953696⟩,
  ⟨"P 41n 2abw", "P 43 21 2 ", true, 139586437376, 68719476928⟩,
  ⟨"I 41b 2bw", "I 41 2 2  ", true, 70866960448, 32⟩,
  ⟨"I 4 -2ab", "I 4 c m   ", true, 566935683104, 2199023255616⟩,
  ⟨"I 41b -2", "I 41 m d  ", true, 2207613190208, 549755813920⟩,
  ⟨"I 41b -2c", "I 41 c d  ", true, 558345748544, 2199023255584⟩,
  ⟨"-F 4ud 2vw 3", "F d -3 c:1", true, 17596483108864, 17184063488⟩]

theorem names10_ok : names10.all NameRow.check = true := by decide +kernel

end Verif.HM
