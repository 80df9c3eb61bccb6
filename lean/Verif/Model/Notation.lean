import Verif.Model.Seitz

/-!
# Hall symbol notations and their text

Model of src/hall_symbols/matrix_symbol/{mod,builder}.rs, notations/mod.rs,
src/hall_symbols/{translation_symbol,lattice_symbol/mod,origin_shift/mod}.rs and the data type and `Display`
of src/hall_symbols/mod.rs.
-/

namespace Verif

/-- `NFold`, src/hall_symbols/matrix_symbol/notations/mod.rs:3-12. -/
inductive NFold where
  | Invalid | N1 | N2 | N3 | N4 | N6
deriving DecidableEq, Repr

/-- `NFoldSub`, notations/mod.rs:27-36. -/
inductive NFoldSub where
  | None | N1 | N2 | N3 | N4 | N5
deriving DecidableEq, Repr

/-- `NFoldDiag`, notations/mod.rs:77-84. -/
inductive NFoldDiag where
  | None | SingleQuote | DoubleQuote | Asterisk
deriving DecidableEq, Repr

/-- `RotationAxis`, notations/mod.rs:97-104. -/
inductive RotationAxis where
  | Omitted | X | Y | Z
deriving DecidableEq, Repr

/-- `TranslationSymbol`, src/hall_symbols/translation_symbol.rs:5-16. -/
inductive TranslationSymbol where
  | Invalid | A | B | C | N | U | V | W | D
deriving DecidableEq, Repr

/-- `TranslationSymbol::translation_vector`, translation_symbol.rs:19-31. -/
def TranslationSymbol.vector : TranslationSymbol → V3
  | .A => ⟨6, 0, 0⟩
  | .B => ⟨0, 6, 0⟩
  | .C => ⟨0, 0, 6⟩
  | .N => ⟨6, 6, 6⟩
  | .U => ⟨3, 0, 0⟩
  | .V => ⟨0, 3, 0⟩
  | .W => ⟨0, 0, 3⟩
  | .D => ⟨3, 3, 3⟩
  | .Invalid => V3.zero

/-- `From<&char> for TranslationSymbol`, translation_symbol.rs:34-48. -/
def TranslationSymbol.ofChar : Char → TranslationSymbol
  | 'a' => .A
  | 'b' => .B
  | 'c' => .C
  | 'n' => .N
  | 'u' => .U
  | 'v' => .V
  | 'w' => .W
  | 'd' => .D
  | _ => .Invalid

/-- `Display for TranslationSymbol`, translation_symbol.rs:50-64. -/
def TranslationSymbol.text : TranslationSymbol → List Char
  | .Invalid => ['I', 'n', 'v', 'a', 'l', 'i', 'd']
  | .A => ['a']
  | .B => ['b']
  | .C => ['c']
  | .N => ['n']
  | .U => ['u']
  | .V => ['v']
  | .W => ['w']
  | .D => ['d']

/-- `Display for NFold`, notations/mod.rs:14-25. -/
def NFold.text : NFold → List Char
  | .Invalid => ['I', 'n', 'v', 'a', 'l', 'i', 'd']
  | .N1 => ['1']
  | .N2 => ['2']
  | .N3 => ['3']
  | .N4 => ['4']
  | .N6 => ['6']

/-- `Display for NFoldSub`, notations/mod.rs:38-49. -/
def NFoldSub.text : NFoldSub → List Char
  | .None => []
  | .N1 => ['1']
  | .N2 => ['2']
  | .N3 => ['3']
  | .N4 => ['4']
  | .N5 => ['5']

/-- `From<&char> for NFoldSub`, notations/mod.rs:64-75. -/
def NFoldSub.ofChar : Char → NFoldSub
  | '1' => .N1
  | '2' => .N2
  | '3' => .N3
  | '4' => .N4
  | '5' => .N5
  | _ => .None

/-- `Display for NFoldDiag`, notations/mod.rs:86-95. -/
def NFoldDiag.text : NFoldDiag → List Char
  | .None => []
  | .SingleQuote => ['\'']
  | .DoubleQuote => ['"']
  | .Asterisk => ['*']

/-- `Display for RotationAxis`, notations/mod.rs:106-115 (`Z` prints nothing). -/
def RotationAxis.text : RotationAxis → List Char
  | .Omitted => []
  | .X => ['x']
  | .Y => ['y']
  | .Z => []

/-- `MatrixSymbol`, src/hall_symbols/matrix_symbol/mod.rs:17-26. -/
structure MatrixSymbol where
  minusSign : Bool
  nfoldBody : NFold
  nfoldSub : NFoldSub
  nfoldDiag : NFoldDiag
  rotationAxis : RotationAxis
  translationSymbols : Option (List TranslationSymbol)
deriving DecidableEq, Repr

/-- `MatrixSymbolBuilder`, src/hall_symbols/matrix_symbol/builder.rs:8-16 (all fields start `None`). -/
structure MatrixSymbolBuilder where
  minusSign : Option Bool := none
  nfoldBody : Option NFold := none
  nfoldSub : Option NFoldSub := none
  nfoldDiag : Option NFoldDiag := none
  rotationAxis : Option RotationAxis := none
  translationSymbols : Option (List TranslationSymbol) := none

/-- `MatrixSymbolBuilder::build`, builder.rs:51-64: defaults are `false`, `NFoldSub::None`, `NFoldDiag::None`
and `RotationAxis::Z` (notations/mod.rs:29,79,102); `none` is `Err(IncompleteFields)`. -/
def MatrixSymbolBuilder.build (b : MatrixSymbolBuilder) : Option MatrixSymbol :=
  match b.nfoldBody with
  | some body => some
      { minusSign := b.minusSign.getD false
        nfoldBody := body
        nfoldSub := b.nfoldSub.getD .None
        nfoldDiag := b.nfoldDiag.getD .None
        rotationAxis := b.rotationAxis.getD .Z
        translationSymbols := b.translationSymbols }
  | none => none

/-- `Display for MatrixSymbol`, src/hall_symbols/matrix_symbol/mod.rs:28-50. -/
def MatrixSymbol.text (m : MatrixSymbol) : List Char :=
  (if m.minusSign then ['-'] else []) ++ m.nfoldBody.text ++ m.rotationAxis.text ++ m.nfoldDiag.text
    ++ m.nfoldSub.text
    ++ (match m.translationSymbols with
        | some l => l.flatMap TranslationSymbol.text
        | none => [])

/-- `Lattices`, src/hall_symbols/lattice_symbol/mod.rs:85-94. -/
inductive Lattices where
  | P | A | B | C | I | R | F
deriving DecidableEq, Repr

/-- `Lattices::get_translations`, lattice_symbol/mod.rs:96-108 with the constants of :131-183. -/
def Lattices.translations : Lattices → List V3
  | .P => [⟨0, 0, 0⟩]
  | .A => [⟨0, 0, 0⟩, ⟨0, 6, 6⟩]
  | .B => [⟨0, 0, 0⟩, ⟨6, 0, 6⟩]
  | .C => [⟨0, 0, 0⟩, ⟨6, 6, 0⟩]
  | .I => [⟨0, 0, 0⟩, ⟨6, 6, 6⟩]
  | .R => [⟨0, 0, 0⟩, ⟨8, 4, 4⟩, ⟨4, 8, 8⟩]
  | .F => [⟨0, 0, 0⟩, ⟨0, 6, 6⟩, ⟨6, 0, 6⟩, ⟨6, 6, 0⟩]

/-- `LatticeSymbol`, lattice_symbol/mod.rs:17-21. -/
structure LatticeSymbol where
  minusSign : Bool
  char : Lattices
deriving DecidableEq, Repr

namespace LatticeSymbol

/-- `LatticeSymbol::get_translations`, lattice_symbol/mod.rs:37-39. -/
def translations (l : LatticeSymbol) : List V3 := l.char.translations

/-- `num_of_translations`, lattice_symbol/mod.rs:40-50. -/
def numOfTranslations (l : LatticeSymbol) : Nat :=
  match l.char with
  | .P => 1
  | .A => 2
  | .B => 2
  | .C => 2
  | .I => 2
  | .R => 3
  | .F => 4

/-- `LatticeSymbol::seitz_matrices`, lattice_symbol/mod.rs:54-69. -/
def seitzMatrices (l : LatticeSymbol) : List M4 :=
  if l.minusSign then
    l.translations.flatMap fun v => [M4.identity.addV v, M4.inversion.addV v]
  else
    l.translations.map fun v => M4.identity.addV v

/-- `SymmetryElement for LatticeSymbol`, lattice_symbol/mod.rs:76-83. -/
def equivNum (l : LatticeSymbol) : Nat :=
  if l.minusSign then l.numOfTranslations * 2 else l.numOfTranslations

/-- The letter printed by `{:?}` of `Lattices` (derived `Debug`), lattice_symbol/mod.rs:26. -/
def letter : Lattices → Char
  | .P => 'P'
  | .A => 'A'
  | .B => 'B'
  | .C => 'C'
  | .I => 'I'
  | .R => 'R'
  | .F => 'F'

/-- `Display for LatticeSymbol`, lattice_symbol/mod.rs:23-28. -/
def text (l : LatticeSymbol) : List Char :=
  (if l.minusSign then ['-'] else []) ++ [letter l.char]

end LatticeSymbol

/-- `OriginShift`, src/hall_symbols/origin_shift/mod.rs:16-21. -/
structure OriginShift where
  va : Int
  vb : Int
  vc : Int
deriving DecidableEq, Repr

namespace OriginShift

/-- The per-component closure of `OriginShift::new`, origin_shift/mod.rs:36-42. -/
def closeComponent (v : Int) : Int :=
  if ¬ (-(base - 1) ≤ v ∧ v < base) then Int.tmod v base + base else v

/-- `OriginShift::new`, origin_shift/mod.rs:34-45. -/
def new (va vb vc : Int) : OriginShift :=
  ⟨closeComponent va, closeComponent vb, closeComponent vc⟩

/-- `Default for OriginShift`, origin_shift/mod.rs:23-27. -/
def default : OriginShift := new 0 0 0

/-- The shift as a vector (used to build the matrices of origin_shift/mod.rs:48-57). -/
def vec (s : OriginShift) : V3 := ⟨s.va, s.vb, s.vc⟩

/-- `OriginShift::shifted_matrix`, origin_shift/mod.rs:47-64: `mvi * m * mv`, then `positive_mod` on all four
entries of the fourth column. -/
def shiftedMatrix (s : OriginShift) (m : M4) : M4 :=
  let mv : M4 := ⟨M3.one, s.vec.neg, V3.zero, 1⟩
  let mvi : M4 := ⟨M3.one, s.vec, V3.zero, 1⟩
  let r := (mvi.mulRaw m).mulRaw mv
  { r with tr := r.tr.map positiveMod, w := positiveMod r.w }

/-- Rust `Display` of an `i32`. -/
def intText (v : Int) : List Char :=
  if v < 0 then '-' :: M4.natText v.natAbs else M4.natText v.natAbs

/-- `Display for OriginShift`, origin_shift/mod.rs:67-71. -/
def text (s : OriginShift) : List Char :=
  ['('] ++ intText s.va ++ [' '] ++ intText s.vb ++ [' '] ++ intText s.vc ++ [')']

end OriginShift

/-- `HallSymbolNotation`, src/hall_symbols/mod.rs:37-42. -/
structure HallSymbolNotation where
  latticeSymbol : LatticeSymbol
  matrixSymbols : List MatrixSymbol
  originShift : OriginShift
deriving DecidableEq, Repr

/-- `Display for HallSymbolNotation`, src/hall_symbols/mod.rs:214-230. -/
def HallSymbolNotation.text (n : HallSymbolNotation) : List Char :=
  n.latticeSymbol.text ++ [' '] ++ M4.joinWith [' '] (n.matrixSymbols.map MatrixSymbol.text)
    ++ (if n.originShift ≠ OriginShift.default then ' ' :: n.originShift.text else [])

end Verif
