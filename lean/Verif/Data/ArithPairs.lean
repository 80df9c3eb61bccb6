import Verif.Proofs.ArithPair

/-!
# From subgroups to arithmetic classes

Generated by tools/gen_classification4.py.
-/

namespace Verif.Arith

/-- For every subgroup of `cubicSubs`. -/
def cubicPairs : List Pair := [
  ⟨0, ⟨1, 0, 0, 0, 1, 0, 0, 0, 1⟩, ⟨0, 0, 0⟩⟩,
  ⟨1, ⟨1, 0, 0, 0, 1, 0, 0, 0, 1⟩, ⟨1, 0, 0⟩⟩,
  ⟨1, ⟨-1, 0, 0, 0, 0, -1, 0, -1, 0⟩, ⟨2, 0, 0⟩⟩,
  ⟨3, ⟨1, 0, 0, 0, 1, 0, 0, 0, 1⟩, ⟨3, 0, 0⟩⟩,
  ⟨1, ⟨0, 1, 0, 0, 0, 1, 1, 0, 0⟩, ⟨4, 0, 0⟩⟩,
  ⟨3, ⟨0, -1, 0, -1, 0, 0, 0, 0, -1⟩, ⟨5, 0, 0⟩⟩,
  ⟨3, ⟨0, 0, 1, 1, 0, 0, 0, 1, 0⟩, ⟨6, 0, 0⟩⟩,
  ⟨5, ⟨1, 0, 0, 0, 1, 0, 0, 0, 1⟩, ⟨7, 0, 0⟩⟩,
  ⟨2, ⟨-1, 0, 0, 0, 0, -1, 0, -1, 0⟩, ⟨8, 0, 0⟩⟩,
  ⟨2, ⟨1, 0, 0, 0, 0, 1, 0, -1, 0⟩, ⟨11, 0, 0⟩⟩,
  ⟨4, ⟨0, 0, 1, 1, 0, 0, 0, 1, 0⟩, ⟨12, 0, 0⟩⟩,
  ⟨4, ⟨0, 0, -1, -1, 0, 0, 0, 1, 0⟩, ⟨15, 0, 0⟩⟩,
  ⟨2, ⟨0, 0, -1, 0, -1, 0, -1, 0, 0⟩, ⟨16, 0, 0⟩⟩,
  ⟨4, ⟨0, 1, 0, 0, 0, 1, 1, 0, 0⟩, ⟨17, 0, 0⟩⟩,
  ⟨2, ⟨0, 0, 1, 0, 1, 0, -1, 0, 0⟩, ⟨22, 0, 0⟩⟩,
  ⟨4, ⟨0, -1, 0, 0, 0, -1, 1, 0, 0⟩, ⟨23, 0, 0⟩⟩,
  ⟨2, ⟨0, 1, 0, 0, 0, 1, 1, 0, 0⟩, ⟨40, 0, 0⟩⟩,
  ⟨4, ⟨0, 0, -1, 0, -1, 0, -1, 0, 0⟩, ⟨42, 0, 0⟩⟩,
  ⟨2, ⟨0, -1, 0, 0, 0, -1, 1, 0, 0⟩, ⟨45, 0, 0⟩⟩,
  ⟨4, ⟨0, 0, 1, 0, 1, 0, -1, 0, 0⟩, ⟨47, 0, 0⟩⟩,
  ⟨6, ⟨0, 0, -1, 0, -1, 0, -1, 0, 0⟩, ⟨24, 0, 0⟩⟩,
  ⟨6, ⟨0, 0, 1, 0, -1, 0, 1, 0, 0⟩, ⟨30, 0, 0⟩⟩,
  ⟨6, ⟨0, 0, -1, 0, 1, 0, 1, 0, 0⟩, ⟨27, 0, 0⟩⟩,
  ⟨6, ⟨0, 0, 1, 0, 1, 0, -1, 0, 0⟩, ⟨29, 0, 0⟩⟩,
  ⟨8, ⟨-1, 0, 0, 0, 0, -1, 0, -1, 0⟩, ⟨3, 1, 0⟩⟩,
  ⟨8, ⟨0, 1, 0, 0, 0, 1, 1, 0, 0⟩, ⟨5, 1, 0⟩⟩,
  ⟨8, ⟨0, 0, -1, 0, -1, 0, -1, 0, 0⟩, ⟨6, 2, 0⟩⟩,
  ⟨13, ⟨0, 0, -1, 0, -1, 0, -1, 0, 0⟩, ⟨3, 5, 0⟩⟩,
  ⟨17, ⟨1, 0, 0, 0, 1, 0, 0, 0, 1⟩, ⟨7, 4, 0⟩⟩,
  ⟨17, ⟨0, -1, 0, -1, 0, 0, 0, 0, -1⟩, ⟨7, 2, 0⟩⟩,
  ⟨17, ⟨0, 0, 1, 1, 0, 0, 0, 1, 0⟩, ⟨7, 1, 0⟩⟩,
  ⟨19, ⟨-1, 0, 0, 0, 0, -1, 0, -1, 0⟩, ⟨9, 0, 0⟩⟩,
  ⟨9, ⟨1, 0, 0, 0, 0, 1, 0, -1, 0⟩, ⟨3, 8, 0⟩⟩,
  ⟨10, ⟨0, 0, 1, 1, 0, 0, 0, 1, 0⟩, ⟨12, 8, 0⟩⟩,
  ⟨18, ⟨0, 0, 1, 1, 0, 0, 0, 1, 0⟩, ⟨7, 11, 0⟩⟩,
  ⟨21, ⟨-1, 0, 0, 0, 0, -1, 0, -1, 0⟩, ⟨13, 0, 0⟩⟩,
  ⟨18, ⟨0, 0, -1, -1, 0, 0, 0, 1, 0⟩, ⟨7, 8, 0⟩⟩,
  ⟨10, ⟨0, 0, -1, -1, 0, 0, 0, 1, 0⟩, ⟨15, 11, 0⟩⟩,
  ⟨14, ⟨1, 0, 0, 0, 0, 1, 0, -1, 0⟩, ⟨12, 15, 0⟩⟩,
  ⟨10, ⟨0, 1, 0, 0, 0, 1, 1, 0, 0⟩, ⟨17, 16, 0⟩⟩,
  ⟨19, ⟨0, 0, -1, 0, -1, 0, -1, 0, 0⟩, ⟨18, 0, 0⟩⟩,
  ⟨21, ⟨0, 0, -1, 0, -1, 0, -1, 0, 0⟩, ⟨19, 0, 0⟩⟩,
  ⟨9, ⟨0, 0, 1, 0, 1, 0, -1, 0, 0⟩, ⟨6, 16, 0⟩⟩,
  ⟨18, ⟨0, 1, 0, 0, 0, 1, 1, 0, 0⟩, ⟨7, 22, 0⟩⟩,
  ⟨18, ⟨0, -1, 0, 0, 0, -1, 1, 0, 0⟩, ⟨7, 16, 0⟩⟩,
  ⟨14, ⟨0, 0, 1, 0, 1, 0, -1, 0, 0⟩, ⟨17, 23, 0⟩⟩,
  ⟨10, ⟨0, -1, 0, 0, 0, -1, 1, 0, 0⟩, ⟨23, 22, 0⟩⟩,
  ⟨10, ⟨0, 0, -1, 0, -1, 0, -1, 0, 0⟩, ⟨42, 40, 0⟩⟩,
  ⟨19, ⟨0, 1, 0, 0, 0, 1, 1, 0, 0⟩, ⟨41, 0, 0⟩⟩,
  ⟨9, ⟨0, -1, 0, 0, 0, -1, 1, 0, 0⟩, ⟨5, 40, 0⟩⟩,
  ⟨18, ⟨0, 0, -1, 0, -1, 0, -1, 0, 0⟩, ⟨7, 45, 0⟩⟩,
  ⟨21, ⟨0, 1, 0, 0, 0, 1, 1, 0, 0⟩, ⟨43, 0, 0⟩⟩,
  ⟨18, ⟨0, 0, 1, 0, 1, 0, -1, 0, 0⟩, ⟨7, 40, 0⟩⟩,
  ⟨14, ⟨0, -1, 0, 0, 0, -1, 1, 0, 0⟩, ⟨42, 47, 0⟩⟩,
  ⟨10, ⟨0, 0, 1, 0, 1, 0, -1, 0, 0⟩, ⟨47, 45, 0⟩⟩,
  ⟨23, ⟨0, 0, -1, 0, -1, 0, -1, 0, 0⟩, ⟨25, 0, 0⟩⟩,
  ⟨23, ⟨0, 0, 1, 0, 1, 0, -1, 0, 0⟩, ⟨28, 0, 0⟩⟩,
  ⟨23, ⟨0, 0, -1, 0, 1, 0, 1, 0, 0⟩, ⟨26, 0, 0⟩⟩,
  ⟨23, ⟨0, 0, 1, 0, -1, 0, 1, 0, 0⟩, ⟨31, 0, 0⟩⟩,
  ⟨25, ⟨0, -1, 0, -1, 0, 0, 0, 0, -1⟩, ⟨24, 8, 0⟩⟩,
  ⟨25, ⟨0, -1, 0, 1, 0, 0, 0, 0, 1⟩, ⟨30, 11, 0⟩⟩,
  ⟨26, ⟨-1, 0, 0, 0, 0, 1, 0, 1, 0⟩, ⟨27, 12, 0⟩⟩,
  ⟨26, ⟨1, 0, 0, 0, 0, -1, 0, 1, 0⟩, ⟨29, 15, 0⟩⟩,
  ⟨25, ⟨0, 1, 0, 1, 0, 0, 0, 0, -1⟩, ⟨27, 11, 0⟩⟩,
  ⟨25, ⟨0, 1, 0, -1, 0, 0, 0, 0, 1⟩, ⟨29, 8, 0⟩⟩,
  ⟨26, ⟨1, 0, 0, 0, 0, 1, 0, -1, 0⟩, ⟨24, 15, 0⟩⟩,
  ⟨26, ⟨-1, 0, 0, 0, 0, -1, 0, -1, 0⟩, ⟨30, 12, 0⟩⟩,
  ⟨29, ⟨0, 0, -1, 0, -1, 0, -1, 0, 0⟩, ⟨7, 3, 5⟩⟩,
  ⟨33, ⟨-1, 0, 0, 0, 0, -1, 0, -1, 0⟩, ⟨9, 1, 0⟩⟩,
  ⟨35, ⟨-1, 0, 0, 0, 0, -1, 0, -1, 0⟩, ⟨13, 9, 0⟩⟩,
  ⟨37, ⟨-1, 0, 0, 0, 0, -1, 0, -1, 0⟩, ⟨13, 5, 0⟩⟩,
  ⟨41, ⟨-1, 0, 0, 0, 0, -1, 0, -1, 0⟩, ⟨9, 5, 0⟩⟩,
  ⟨30, ⟨1, 0, 0, 0, 0, 1, 0, -1, 0⟩, ⟨7, 12, 15⟩⟩,
  ⟨38, ⟨-1, 0, 0, 0, -1, 0, 0, 0, 1⟩, ⟨13, 12, 0⟩⟩,
  ⟨35, ⟨0, 0, -1, 0, -1, 0, -1, 0, 0⟩, ⟨19, 18, 0⟩⟩,
  ⟨33, ⟨0, 0, -1, 0, -1, 0, -1, 0, 0⟩, ⟨18, 2, 0⟩⟩,
  ⟨37, ⟨0, 0, -1, 0, -1, 0, -1, 0, 0⟩, ⟨19, 3, 0⟩⟩,
  ⟨41, ⟨0, 0, -1, 0, -1, 0, -1, 0, 0⟩, ⟨18, 3, 0⟩⟩,
  ⟨38, ⟨0, 0, -1, -1, 0, 0, 0, 1, 0⟩, ⟨19, 17, 0⟩⟩,
  ⟨30, ⟨0, 0, 1, 0, 1, 0, -1, 0, 0⟩, ⟨7, 17, 23⟩⟩,
  ⟨33, ⟨0, 1, 0, 0, 0, 1, 1, 0, 0⟩, ⟨41, 1, 0⟩⟩,
  ⟨35, ⟨0, 1, 0, 0, 0, 1, 1, 0, 0⟩, ⟨43, 41, 0⟩⟩,
  ⟨37, ⟨0, 1, 0, 0, 0, 1, 1, 0, 0⟩, ⟨43, 3, 0⟩⟩,
  ⟨41, ⟨0, 1, 0, 0, 0, 1, 1, 0, 0⟩, ⟨41, 3, 0⟩⟩,
  ⟨30, ⟨0, -1, 0, 0, 0, -1, 1, 0, 0⟩, ⟨7, 42, 47⟩⟩,
  ⟨38, ⟨0, 1, 0, 1, 0, 0, 0, 0, -1⟩, ⟨43, 42, 0⟩⟩,
  ⟨43, ⟨-1, 0, 0, 0, 1, 0, 0, 0, -1⟩, ⟨24, 27, 0⟩⟩,
  ⟨46, ⟨1, 0, 0, 0, 1, 0, 0, 0, 1⟩, ⟨28, 12, 0⟩⟩,
  ⟨46, ⟨-1, 0, 0, 0, 1, 0, 0, 0, -1⟩, ⟨26, 15, 0⟩⟩,
  ⟨46, ⟨1, 0, 0, 0, -1, 0, 0, 0, -1⟩, ⟨25, 12, 0⟩⟩,
  ⟨46, ⟨-1, 0, 0, 0, -1, 0, 0, 0, 1⟩, ⟨31, 15, 0⟩⟩,
  ⟨48, ⟨-1, 0, 0, 0, 0, -1, 0, -1, 0⟩, ⟨13, 9, 5⟩⟩,
  ⟨48, ⟨0, 0, -1, 0, -1, 0, -1, 0, 0⟩, ⟨19, 18, 3⟩⟩,
  ⟨48, ⟨0, 1, 0, 0, 0, 1, 1, 0, 0⟩, ⟨43, 41, 3⟩⟩,
  ⟨50, ⟨-1, 0, 0, 0, 1, 0, 0, 0, -1⟩, ⟨25, 26, 0⟩⟩,
  ⟨53, ⟨-1, 0, 0, 0, 1, 0, 0, 0, -1⟩, ⟨13, 19, 0⟩⟩,
  ⟨56, ⟨0, -1, 0, 0, 0, 1, -1, 0, 0⟩, ⟨9, 18, 0⟩⟩,
  ⟨59, ⟨-1, 0, 0, 0, 1, 0, 0, 0, -1⟩, ⟨25, 13, 0⟩⟩]

/-- For every subgroup of `hexSubs`. -/
def hexPairs : List Pair := [
  ⟨0, ⟨1, 0, 0, 0, 1, 0, 0, 0, 1⟩, ⟨20, 20, 20⟩⟩,
  ⟨2, ⟨0, 0, 1, 0, 1, 0, -1, 1, 0⟩, ⟨0, 20, 20⟩⟩,
  ⟨4, ⟨0, -1, 0, 0, 0, -1, 1, -1, 0⟩, ⟨1, 20, 20⟩⟩,
  ⟨3, ⟨0, 0, 1, 1, 0, 0, 0, 1, 0⟩, ⟨2, 20, 20⟩⟩,
  ⟨5, ⟨1, 0, 0, 0, 1, 0, 0, 0, 1⟩, ⟨3, 20, 20⟩⟩,
  ⟨2, ⟨0, 0, -1, -1, 1, 0, 1, 0, 0⟩, ⟨6, 20, 20⟩⟩,
  ⟨4, ⟨1, -1, 0, 0, 0, 1, -1, 0, 0⟩, ⟨7, 20, 20⟩⟩,
  ⟨2, ⟨0, 0, 1, 0, 1, 0, -1, 0, 0⟩, ⟨8, 20, 20⟩⟩,
  ⟨4, ⟨0, -1, 0, 0, 0, -1, 1, 0, 0⟩, ⟨9, 20, 20⟩⟩,
  ⟨2, ⟨0, 0, -1, 0, -1, 0, -1, 0, 0⟩, ⟨14, 20, 20⟩⟩,
  ⟨4, ⟨0, 1, 0, 0, 0, 1, 1, 0, 0⟩, ⟨15, 20, 20⟩⟩,
  ⟨2, ⟨0, 0, 1, 1, -1, 0, 1, 0, 0⟩, ⟨16, 20, 20⟩⟩,
  ⟨4, ⟨-1, 1, 0, 0, 0, -1, -1, 0, 0⟩, ⟨17, 20, 20⟩⟩,
  ⟨1, ⟨1, 0, 0, 0, 1, 0, 0, 0, 1⟩, ⟨21, 20, 20⟩⟩,
  ⟨2, ⟨0, 0, -1, 0, -1, 0, -1, 1, 0⟩, ⟨22, 20, 20⟩⟩,
  ⟨4, ⟨0, 1, 0, 0, 0, 1, 1, -1, 0⟩, ⟨23, 20, 20⟩⟩,
  ⟨7, ⟨1, -1, 0, 0, 0, -1, 1, 0, 0⟩, ⟨4, 20, 20⟩⟩,
  ⟨9, ⟨0, 0, -1, 0, -1, 0, -1, 0, 0⟩, ⟨2, 8, 20⟩⟩,
  ⟨18, ⟨0, -1, 0, 0, 0, -1, 1, 0, 0⟩, ⟨3, 14, 20⟩⟩,
  ⟨18, ⟨0, 1, 0, 0, 0, 1, 1, 0, 0⟩, ⟨3, 8, 20⟩⟩,
  ⟨14, ⟨0, 0, -1, 0, -1, 0, -1, 0, 0⟩, ⟨9, 15, 20⟩⟩,
  ⟨9, ⟨0, 0, 1, 1, -1, 0, 1, 0, 0⟩, ⟨2, 6, 20⟩⟩,
  ⟨18, ⟨1, -1, 0, 0, 0, 1, -1, 0, 0⟩, ⟨3, 16, 20⟩⟩,
  ⟨18, ⟨-1, 1, 0, 0, 0, -1, -1, 0, 0⟩, ⟨3, 6, 20⟩⟩,
  ⟨14, ⟨0, 0, 1, 1, -1, 0, 1, 0, 0⟩, ⟨7, 17, 20⟩⟩,
  ⟨10, ⟨0, -1, 0, 0, 0, -1, 1, -1, 0⟩, ⟨1, 0, 20⟩⟩,
  ⟨17, ⟨0, 0, 1, 1, 0, 0, 0, 1, 0⟩, ⟨3, 21, 20⟩⟩,
  ⟨10, ⟨-1, 1, 0, 0, 0, 1, 1, 0, 0⟩, ⟨7, 6, 20⟩⟩,
  ⟨10, ⟨0, -1, 0, 0, 0, -1, 1, 0, 0⟩, ⟨9, 8, 20⟩⟩,
  ⟨10, ⟨0, 1, 0, 0, 0, 1, 1, 0, 0⟩, ⟨15, 14, 20⟩⟩,
  ⟨10, ⟨1, -1, 0, 0, 0, -1, 1, 0, 0⟩, ⟨17, 16, 20⟩⟩,
  ⟨9, ⟨0, 0, -1, 0, -1, 0, -1, 1, 0⟩, ⟨2, 0, 20⟩⟩,
  ⟨18, ⟨0, -1, 0, 0, 0, -1, 1, -1, 0⟩, ⟨3, 22, 20⟩⟩,
  ⟨14, ⟨0, 0, -1, 0, -1, 0, -1, 1, 0⟩, ⟨1, 23, 20⟩⟩,
  ⟨18, ⟨0, 1, 0, 0, 0, 1, 1, -1, 0⟩, ⟨3, 0, 20⟩⟩,
  ⟨10, ⟨0, 1, 0, 0, 0, 1, 1, -1, 0⟩, ⟨23, 22, 20⟩⟩,
  ⟨28, ⟨0, -1, 0, 0, 0, -1, 1, -1, 0⟩, ⟨4, 0, 20⟩⟩,
  ⟨62, ⟨0, 1, 0, -1, 1, 0, 0, 0, 1⟩, ⟨4, 1, 20⟩⟩,
  ⟨63, ⟨1, -1, 0, 1, 0, 0, 0, 0, 1⟩, ⟨12, 20, 20⟩⟩,
  ⟨24, ⟨1, -1, 0, 0, 0, -1, 1, 0, 0⟩, ⟨13, 20, 20⟩⟩,
  ⟨64, ⟨1, -1, 0, 1, 0, 0, 0, 0, 1⟩, ⟨5, 20, 20⟩⟩,
  ⟨65, ⟨1, -1, 0, 1, 0, 0, 0, 0, 1⟩, ⟨4, 6, 20⟩⟩,
  ⟨27, ⟨1, -1, 0, 0, 0, -1, 1, 0, 0⟩, ⟨4, 7, 20⟩⟩,
  ⟨30, ⟨0, 0, -1, 0, -1, 0, -1, 0, 0⟩, ⟨3, 9, 15⟩⟩,
  ⟨30, ⟨0, 0, 1, 1, -1, 0, 1, 0, 0⟩, ⟨3, 7, 17⟩⟩,
  ⟨30, ⟨0, 0, -1, 0, -1, 0, -1, 1, 0⟩, ⟨3, 1, 23⟩⟩,
  ⟨66, ⟨0, 1, 0, -1, 1, 0, 0, 0, 1⟩, ⟨5, 1, 20⟩⟩,
  ⟨67, ⟨1, -1, 0, 1, 0, 0, 0, 0, 1⟩, ⟨5, 13, 20⟩⟩,
  ⟨68, ⟨1, -1, 0, 1, 0, 0, 0, 0, 1⟩, ⟨12, 6, 20⟩⟩,
  ⟨69, ⟨1, -1, 0, 1, 0, 0, 0, 0, 1⟩, ⟨13, 6, 20⟩⟩,
  ⟨70, ⟨1, -1, 0, 1, 0, 0, 0, 0, 1⟩, ⟨12, 7, 20⟩⟩,
  ⟨47, ⟨1, -1, 0, 0, 0, -1, 1, 0, 0⟩, ⟨13, 7, 20⟩⟩,
  ⟨71, ⟨1, -1, 0, 1, 0, 0, 0, 0, 1⟩, ⟨5, 7, 20⟩⟩,
  ⟨72, ⟨1, -1, 0, 1, 0, 0, 0, 0, 1⟩, ⟨5, 13, 7⟩⟩]

end Verif.Arith
