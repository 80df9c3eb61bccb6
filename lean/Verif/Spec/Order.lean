import Verif.Model.Order

/-! # Specification of comparisons (C77): what a lawful `cmp` is, and the order the notations are expected to have -/

namespace Verif

/-- A lawful `Ord`: `cmp` says `Equal` exactly on equal values, reverses when the arguments are swapped, and "less" is
transitive. (Any two values are then exactly one of less, equal and greater.) -/
structure LawfulCmp {α : Type} (c : α → α → Ordering) : Prop where
  equal : ∀ a b, c a b = .eq ↔ a = b
  swap : ∀ a b, c b a = (c a b).swap
  trans : ∀ a b d, c a b = .lt → c b d = .lt → c a d = .lt

/-- A matrix symbol as a word of numbers: sign (0 or 1), fold, subscript, diagonal mark, axis (each by its place in the
declaration), and, if there is a list of translation letters, a 1 and the places of the letters. -/
def MatrixSymbol.word (m : MatrixSymbol) : List Nat :=
  [if m.minusSign then 1 else 0, m.nfoldBody.position, m.nfoldSub.position, m.nfoldDiag.position,
    m.rotationAxis.position] ++
  (match m.translationSymbols with
   | none => []
   | some l => 1 :: l.map TranslationSymbol.position)

end Verif
