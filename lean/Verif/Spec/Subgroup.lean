import Verif.Spec.Group
import Verif.Spec.Reference

/-!
# Specification: comparing notations by what they name

No part of the code is mentioned besides the fields of a notation.
-/

namespace Verif

/-- Everything `n` names is also named by `n'`: centring translations, the leading `-`, matrix symbols (in any order, any
number of times); both have the same origin shift. -/
structure NamesLess (n n' : HallSymbolNotation) : Prop where
  lattice : ∀ v ∈ n.latticeSymbol.translations, v ∈ n'.latticeSymbol.translations
  minus : n.latticeSymbol.minusSign = true → n'.latticeSymbol.minusSign = true
  symbols : ∀ s ∈ n.matrixSymbols, s ∈ n'.matrixSymbols
  shift : n.originShift.vec = n'.originShift.vec

/-- The same notation with a leading `-`. -/
def HallSymbolNotation.withMinus (n : HallSymbolNotation) : HallSymbolNotation :=
  { n with latticeSymbol := { n.latticeSymbol with minusSign := true } }

/-- The number of symmetries of the cell selected by the first matrix symbol: 24 for a hexagonal, 12 for a rhombohedral,
48 for a cubic cell. -/
def cellSymmetries (n : HallSymbolNotation) : Nat :=
  match n.matrixSymbols with
  | [] => 0
  | m :: _ =>
    match m.nfoldBody, m.nfoldDiag with
    | .N6, _ => 24
    | .N3, .Asterisk => 12
    | .N3, _ => 24
    | _, _ => 48

end Verif
