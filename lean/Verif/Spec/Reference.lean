import Verif.Spec.Symbol

/-!
# Specification: the cell a notation is listed in

Which rotations can be listed for a notation: the symmetries of a hexagonal cell when the first symbol has order 3 or 6
about a principal axis, of a rhombohedral cell when it is `3*`, of a cubic cell otherwise.
-/

namespace Verif

/-- Symmetries of a rhombohedral cell: cubic ones that keep the body diagonal. -/
def M3.Rhombohedral (r : M3) : Prop :=
  r.Cubic ∧ (r.mulVec ⟨1, 1, 1⟩ = ⟨1, 1, 1⟩ ∨ r.mulVec ⟨1, 1, 1⟩ = ⟨-1, -1, -1⟩)

/-- The rotations of the cell selected by the first matrix symbol. -/
def FitsFirstSymbol (n : HallSymbolNotation) (r : M3) : Prop :=
  match n.matrixSymbols with
  | [] => False
  | m :: _ =>
    match m.nfoldBody, m.nfoldDiag with
    | .N6, _ => r.Hexagonal
    | .N3, .Asterisk => r.Rhombohedral
    | .N3, _ => r.Hexagonal
    | _, _ => r.Cubic

/-- Bytes requested before generating: 64 per operation for (centring translations) x (2 with a leading `-`) x (product
of the orders of all matrix symbols). -/
def bytesRequested (n : HallSymbolNotation) : Nat :=
  n.latticeSymbol.translations.length * (if n.latticeSymbol.minusSign then 2 else 1)
    * (n.matrixSymbols.map fun s => s.nfoldBody.number).prod * 64

end Verif
