import Verif.Proofs.Equivalence
import Verif.Spec.Reference
import Verif.Proofs.Holohedry
import Verif.Model.Parser

/-! # The check made for every row of the tables -/

namespace Verif

/-- A row: space-group number, the Hall symbol of the row it is compared with, its own Hall symbol, number of the group (see `groupKey`), whether all its operations have an
axis `eigenvector` finds, and the change of basis from the row it is compared with, with its inverse. -/
structure Row where
  num : Nat
  ref : String
  hall : String
  key : Nat
  shown : Bool
  c : Move
  e : Move

/-- Boolean form of `FitsFirstSymbol`. -/
def fitsB (n : HallSymbolNotation) (r : M3) : Bool :=
  match n.matrixSymbols with
  | [] => false
  | m :: _ =>
    match m.nfoldBody, m.nfoldDiag with
    | .N6, _ => decide r.Hexagonal
    | .N3, .Asterisk => decide r.Cubic && (decide (r.mulVec ⟨1, 1, 1⟩ = ⟨1, 1, 1⟩) || decide (r.mulVec ⟨1, 1, 1⟩ = ⟨-1, -1, -1⟩))
    | .N3, _ => decide r.Hexagonal
    | _, _ => decide r.Cubic

/-- The four rotations of the hexagonal cell without an axis in -1..1. -/
def badAxes : List M3 :=
  [⟨1, 0, 0, 1, -1, 0, 0, 0, -1⟩, ⟨-1, 1, 0, 0, 1, 0, 0, 0, -1⟩, ⟨-1, 0, 0, -1, 1, 0, 0, 0, 1⟩, ⟨1, -1, 0, 0, -1, 0, 0, 0, 1⟩]

/-- All types. -/
def allTypes : List RotationType := [.E, .N2, .N3, .N4, .N6, .I, .M, .M3, .M4, .M6]

/-- (determinant, trace) of a type. -/
def typePair : RotationType → Int × Int
  | .E => (1, 3)
  | .N2 => (1, -1)
  | .N3 => (1, 0)
  | .N4 => (1, 1)
  | .N6 => (1, 2)
  | .I => (-1, -3)
  | .M => (-1, 1)
  | .M3 => (-1, 0)
  | .M4 => (-1, -1)
  | .M6 => (-1, -2)

/-- Boolean test of the type of a rotation. -/
def typeB (t : RotationType) (r : M3) : Bool := intEqB r.trace (typePair t).2 && intEqB r.det (typePair t).1

/-- Number of rotations of a type. -/
def countType (t : RotationType) : List M4 → Nat
  | [] => 0
  | m :: L => bif typeB t m.rot then Nat.succ (countType t L) else countType t L

/-- The check of one row against the first row with the same number. -/
def rowCheck2 (t : FunctionalTable) (row : Row) (cc : ClassCounts) (n n' : HallSymbolNotation) (ms ms' L L' : List M4) : Bool :=
  checkCert n ms L && ! n.matrixSymbols.isEmpty && ms.all (fun m => fitsB n m.rot) && Nat.ble (bytesRequested n) HallSymbolNotation.maxBytes &&
  Nat.beq (groupKey t n L) row.key &&
  allTypes.all (fun k => Nat.beq (countType k L) (cc.get k)) && Nat.beq L.length cc.order &&
  (L.all (fun m => ! badAxes.any m.rot.eqB) == row.shown) &&
  inverseCheck row.c row.e && moveCheck row.c n' ms' n L && moveCheck row.e n ms n' L'

/-- The check of one row. -/
def rowCheck (t : FunctionalTable) (row : Row) : Bool :=
  match parseHallSymbol row.hall.toList, parseHallSymbol row.ref.toList, crystalClass row.num with
  | some (n, []), some (n', []), some cc =>
    match n.seitzMatrices, n'.seitzMatrices with
    | some ms, some ms' => rowCheck2 t row cc n n' ms ms' (certList n ms) (certList n' ms')
    | _, _ => false
  | _, _, _ => false

/-- The identity as a change of basis. -/
def idM : Move := ⟨⟨1, 0, 0, 0, 1, 0, 0, 0, 1⟩, ⟨0, 0, 0⟩, 1⟩

/-- Two Hall symbols with a change of origin and its inverse. -/
structure Pair where
  a : String
  b : String
  c : Move
  e : Move

/-- The check of a pair. -/
def pairCheck (p : Pair) : Bool :=
  match parseHallSymbol p.a.toList, parseHallSymbol p.b.toList with
  | some (n, []), some (n', []) =>
    match n.seitzMatrices, n'.seitzMatrices with
    | some ms, some ms' =>
      p.c.a.eqB (M3.one.map fun v => v * p.c.d) && inverseCheck p.c p.e &&
      moveCheck p.c n ms n' (certList n' ms') && moveCheck p.e n' ms' n (certList n ms)
    | _, _ => false
  | _, _ => false

end Verif
