import Verif.Model.Positions

/-!
# The derived comparisons

Model of the `derive(PartialOrd, Ord)` lines of src/hall_symbols: what the derive macro of the standard library generates.
A fieldless enum is compared by the position of its variant, a struct field by field in the order of declaration, a `bool`
as `false < true`, an `Option` as `None < Some`, a `Vec` lexicographically with a proper prefix being less.
-/

namespace Verif

/-- Position of the variant of `NFold`, src/hall_symbols/matrix_symbol/notations/mod.rs:3-12. -/
def NFold.position : NFold → Nat
  | .Invalid => 0 | .N1 => 1 | .N2 => 2 | .N3 => 3 | .N4 => 4 | .N6 => 5

/-- Position of the variant of `NFoldSub`, notations/mod.rs:27-36. -/
def NFoldSub.position : NFoldSub → Nat
  | .None => 0 | .N1 => 1 | .N2 => 2 | .N3 => 3 | .N4 => 4 | .N5 => 5

/-- Position of the variant of `NFoldDiag`, notations/mod.rs:77-84. -/
def NFoldDiag.position : NFoldDiag → Nat
  | .None => 0 | .SingleQuote => 1 | .DoubleQuote => 2 | .Asterisk => 3

/-- Position of the variant of `RotationAxis`, notations/mod.rs:97-104. -/
def RotationAxis.position : RotationAxis → Nat
  | .Omitted => 0 | .X => 1 | .Y => 2 | .Z => 3

/-- Position of the variant of `TranslationSymbol`, src/hall_symbols/translation_symbol.rs:5-16. -/
def TranslationSymbol.position : TranslationSymbol → Nat
  | .Invalid => 0 | .A => 1 | .B => 2 | .C => 3 | .N => 4 | .U => 5 | .V => 6 | .W => 7 | .D => 8

/-- Position of the variant of `Lattices`, src/hall_symbols/lattice_symbol/mod.rs:85-94. -/
def Lattices.position : Lattices → Nat
  | .P => 0 | .A => 1 | .B => 2 | .C => 3 | .I => 4 | .R => 5 | .F => 6

/-- Derived `cmp` of `NFold`, notations/mod.rs:3. -/
def NFold.cmp (a b : NFold) : Ordering := compare a.position b.position

/-- Derived `cmp` of `NFoldSub`, notations/mod.rs:27. -/
def NFoldSub.cmp (a b : NFoldSub) : Ordering := compare a.position b.position

/-- Derived `cmp` of `NFoldDiag`, notations/mod.rs:77. -/
def NFoldDiag.cmp (a b : NFoldDiag) : Ordering := compare a.position b.position

/-- Derived `cmp` of `RotationAxis`, notations/mod.rs:97. -/
def RotationAxis.cmp (a b : RotationAxis) : Ordering := compare a.position b.position

/-- Derived `cmp` of `TranslationSymbol`, translation_symbol.rs:5. -/
def TranslationSymbol.cmp (a b : TranslationSymbol) : Ordering := compare a.position b.position

/-- Derived `cmp` of `Lattices`, lattice_symbol/mod.rs:85. -/
def Lattices.cmp (a b : Lattices) : Ordering := compare a.position b.position

/-- `cmp` of `bool` (std). -/
def boolCmp : Bool → Bool → Ordering
  | false, false => .eq
  | false, true => .lt
  | true, false => .gt
  | true, true => .eq

/-- Derived `cmp` of `Option<T>` (std). -/
def optionCmp {α : Type} (c : α → α → Ordering) : Option α → Option α → Ordering
  | none, none => .eq
  | none, some _ => .lt
  | some _, none => .gt
  | some a, some b => c a b

/-- `cmp` of slices and `Vec<T>` (std). -/
def vecCmp {α : Type} (c : α → α → Ordering) : List α → List α → Ordering
  | [], [] => .eq
  | [], _ :: _ => .lt
  | _ :: _, [] => .gt
  | a :: as, b :: bs =>
    match c a b with
    | .eq => vecCmp c as bs
    | o => o

/-- `partial_cmp` of slices and `Vec<T>` (std): the first entries that are not `Some(Equal)` decide, then the lengths. -/
def vecPartialCmp {α : Type} (c : α → α → Option Ordering) : List α → List α → Option Ordering
  | [], [] => some .eq
  | [], _ :: _ => some .lt
  | _ :: _, [] => some .gt
  | a :: as, b :: bs =>
    match c a b with
    | some .eq => vecPartialCmp c as bs
    | o => o

/-- Derived `cmp` of `LatticeSymbol`, lattice_symbol/mod.rs:17-21. -/
def LatticeSymbol.cmp (a b : LatticeSymbol) : Ordering :=
  match boolCmp a.minusSign b.minusSign with
  | .eq => a.char.cmp b.char
  | o => o

/-- Derived `cmp` of `OriginShift`, src/hall_symbols/origin_shift/mod.rs:16-21. -/
def OriginShift.cmp (a b : OriginShift) : Ordering :=
  match compare a.va b.va with
  | .eq =>
    match compare a.vb b.vb with
    | .eq => compare a.vc b.vc
    | o => o
  | o => o

/-- Derived `cmp` of `MatrixSymbol`, src/hall_symbols/matrix_symbol/mod.rs:17-26. -/
def MatrixSymbol.cmp (a b : MatrixSymbol) : Ordering :=
  match boolCmp a.minusSign b.minusSign with
  | .eq =>
    match a.nfoldBody.cmp b.nfoldBody with
    | .eq =>
      match a.nfoldSub.cmp b.nfoldSub with
      | .eq =>
        match a.nfoldDiag.cmp b.nfoldDiag with
        | .eq =>
          match a.rotationAxis.cmp b.rotationAxis with
          | .eq => optionCmp (vecCmp TranslationSymbol.cmp) a.translationSymbols b.translationSymbols
          | o => o
        | o => o
      | o => o
    | o => o
  | o => o

/-- Derived `partial_cmp` of `HallSymbolNotation`, src/hall_symbols/mod.rs:37-42. The fields are totally ordered, so
their `partial_cmp` is `Some` of their `cmp`. -/
def HallSymbolNotation.partialCmp (a b : HallSymbolNotation) : Option Ordering :=
  match some (a.latticeSymbol.cmp b.latticeSymbol) with
  | some .eq =>
    match vecPartialCmp (fun x y => some (MatrixSymbol.cmp x y)) a.matrixSymbols b.matrixSymbols with
    | some .eq => some (a.originShift.cmp b.originShift)
    | o => o
  | o => o

/-- nalgebra's `partial_cmp` of a `Vector3<i32>` (external): componentwise, `None` when two components disagree. -/
def V3.partialCmp (a b : V3) : Option Ordering :=
  M4.partialCmpLoop (compare a.x b.x) [(a.y, b.y), (a.z, b.z)]

/-- Derived `partial_cmp` of `GeneralPositions`, src/hall_symbols/general_positions.rs:10-14. -/
def GeneralPositions.partialCmp (g h : GeneralPositions) : Option Ordering :=
  match vecPartialCmp V3.partialCmp g.latticeTranslations h.latticeTranslations with
  | some .eq => vecPartialCmp M4.partialCmp g.corePositionSet h.corePositionSet
  | o => o

/-- `Display for RotationType`, notations/mod.rs:191-206 (an improper one is the digit and U+0305, a bar over it). -/
def RotationType.text : RotationType → List Char
  | .E => ['1']
  | .N2 => ['2']
  | .N3 => ['3']
  | .N4 => ['4']
  | .N6 => ['6']
  | .I => ['1', '\u0305']
  | .M => ['2', '\u0305']
  | .M3 => ['3', '\u0305']
  | .M4 => ['4', '\u0305']
  | .M6 => ['6', '\u0305']

end Verif
