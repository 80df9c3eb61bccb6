import Verif.Model.Display
import Verif.Model.FloatType
import Verif.Model.Rotations
import Verif.Model.CrystalSystem

/-!
# `Debug` texts and error messages

Model of the derived `Debug` (`{:?}`) of the public types, and of the error values of `rotation_type`, `seitz_matrix` and
`build` with their `Display`. The layout of derived `Debug` (std) and of nalgebra's storage (the array of its columns) is
external. Not modelled: `{:#?}`.
-/

namespace Verif

namespace Dbg

/-- A field of a derived `Debug` (std): `name: value`. -/
def field (name : String) (value : List Char) : List Char := name.toList ++ ([':', ' '] ++ value)

/-- A struct under derived `Debug` (std): `Name { a: 1, b: 2 }`. -/
def struct (name : String) (fields : List (List Char)) : List Char :=
  name.toList ++ ([' ', '{', ' '] ++ (M4.joinWith [',', ' '] fields ++ [' ', '}']))

/-- A list, `Vec` or array under `Debug` (std): `[a, b]`. -/
def list {α : Type} (f : α → List Char) (l : List α) : List Char :=
  '[' :: (M4.joinWith [',', ' '] (l.map f) ++ [']'])

/-- One value in a tuple variant or struct under derived `Debug` (std): `Name(a)`. -/
def wrap1 (name : String) (value : List Char) : List Char := name.toList ++ ('(' :: (value ++ [')']))

/-- An `Option` under `Debug` (std). -/
def option {α : Type} (f : α → List Char) : Option α → List Char
  | none => ['N', 'o', 'n', 'e']
  | some a => ['S', 'o', 'm', 'e', '('] ++ (f a ++ [')'])

/-- A `bool` under `Debug` (std). -/
def bool : Bool → List Char
  | true => ['t', 'r', 'u', 'e']
  | false => ['f', 'a', 'l', 's', 'e']

end Dbg

/-- Derived `Debug`, src/hall_symbols/matrix_symbol/notations/mod.rs:3-12. -/
def NFold.debugText : NFold → List Char
  | .Invalid => ['I', 'n', 'v', 'a', 'l', 'i', 'd']
  | .N1 => ['N', '1'] | .N2 => ['N', '2'] | .N3 => ['N', '3'] | .N4 => ['N', '4'] | .N6 => ['N', '6']

/-- Derived `Debug`, notations/mod.rs:27-36. -/
def NFoldSub.debugText : NFoldSub → List Char
  | .None => ['N', 'o', 'n', 'e']
  | .N1 => ['N', '1'] | .N2 => ['N', '2'] | .N3 => ['N', '3'] | .N4 => ['N', '4'] | .N5 => ['N', '5']

/-- Derived `Debug`, notations/mod.rs:77-84. -/
def NFoldDiag.debugText : NFoldDiag → List Char
  | .None => ['N', 'o', 'n', 'e']
  | .SingleQuote => ['S', 'i', 'n', 'g', 'l', 'e', 'Q', 'u', 'o', 't', 'e']
  | .DoubleQuote => ['D', 'o', 'u', 'b', 'l', 'e', 'Q', 'u', 'o', 't', 'e']
  | .Asterisk => ['A', 's', 't', 'e', 'r', 'i', 's', 'k']

/-- Derived `Debug`, notations/mod.rs:97-104. -/
def RotationAxis.debugText : RotationAxis → List Char
  | .Omitted => ['O', 'm', 'i', 't', 't', 'e', 'd']
  | .X => ['X'] | .Y => ['Y'] | .Z => ['Z']

/-- Derived `Debug`, src/hall_symbols/translation_symbol.rs:5-16. -/
def TranslationSymbol.debugText : TranslationSymbol → List Char
  | .Invalid => ['I', 'n', 'v', 'a', 'l', 'i', 'd']
  | .A => ['A'] | .B => ['B'] | .C => ['C'] | .N => ['N'] | .U => ['U'] | .V => ['V'] | .W => ['W'] | .D => ['D']

/-- Derived `Debug`, src/hall_symbols/lattice_symbol/mod.rs:85-94. -/
def Lattices.debugText (l : Lattices) : List Char := [LatticeSymbol.letter l]

/-- Derived `Debug` of `MatrixSymbol`, src/hall_symbols/matrix_symbol/mod.rs:17-26. -/
def MatrixSymbol.debugText (m : MatrixSymbol) : List Char :=
  Dbg.struct "MatrixSymbol" [Dbg.field "minus_sign" (Dbg.bool m.minusSign), Dbg.field "nfold_body" m.nfoldBody.debugText,
    Dbg.field "nfold_sub" m.nfoldSub.debugText, Dbg.field "nfold_diag" m.nfoldDiag.debugText,
    Dbg.field "rotation_axis" m.rotationAxis.debugText,
    Dbg.field "translation_symbols" (Dbg.option (Dbg.list TranslationSymbol.debugText) m.translationSymbols)]

/-- Derived `Debug` of `LatticeSymbol`, src/hall_symbols/lattice_symbol/mod.rs:17-21. -/
def LatticeSymbol.debugText (l : LatticeSymbol) : List Char :=
  Dbg.struct "LatticeSymbol" [Dbg.field "minus_sign" (Dbg.bool l.minusSign), Dbg.field "char" l.char.debugText]

/-- Derived `Debug` of `OriginShift`, src/hall_symbols/origin_shift/mod.rs:16-21. -/
def OriginShift.debugText (s : OriginShift) : List Char :=
  Dbg.struct "OriginShift" [Dbg.field "va" (OriginShift.intText s.va), Dbg.field "vb" (OriginShift.intText s.vb),
    Dbg.field "vc" (OriginShift.intText s.vc)]

/-- Derived `Debug` of `HallSymbolNotation`, src/hall_symbols/mod.rs:37-42. -/
def HallSymbolNotation.debugText (n : HallSymbolNotation) : List Char :=
  Dbg.struct "HallSymbolNotation" [Dbg.field "lattice_symbol" n.latticeSymbol.debugText,
    Dbg.field "matrix_symbols" (Dbg.list MatrixSymbol.debugText n.matrixSymbols),
    Dbg.field "origin_shift" n.originShift.debugText]

/-- Derived `Debug` of `SeitzMatrix`, src/hall_symbols/matrix_symbol/matrices/mod.rs:12-13: the columns of the matrix. -/
def M4.debugText (m : M4) : List Char :=
  Dbg.wrap1 "SeitzMatrix" (Dbg.list (Dbg.list OriginShift.intText)
    [[m.rot.m11, m.rot.m21, m.rot.m31, m.bot.x], [m.rot.m12, m.rot.m22, m.rot.m32, m.bot.y],
      [m.rot.m13, m.rot.m23, m.rot.m33, m.bot.z], [m.tr.x, m.tr.y, m.tr.z, m.w]])

/-- Derived `Debug` of `GeneralPositions`, src/hall_symbols/general_positions.rs:10-14. -/
def GeneralPositions.debugText (g : GeneralPositions) : List Char :=
  Dbg.struct "GeneralPositions" [Dbg.field "lattice_translations" (Dbg.list vectorDebug g.latticeTranslations),
    Dbg.field "core_position_set" (Dbg.list M4.debugText g.corePositionSet)]

/-- `SeitzMatrixError`, src/hall_symbols/matrix_symbol/matrices/mod.rs:15-18. -/
inductive SeitzMatrixError
  | NotRotationMatrix (m : M4)
deriving DecidableEq, Repr

/-- `Display` of a nalgebra `Matrix4<i32>` (external), used at matrices/mod.rs:23: the box of C90 with integer cells. -/
def M4.matrixText (m : M4) : List Char :=
  boxText 4 ([[m.rot.m11, m.rot.m12, m.rot.m13, m.tr.x], [m.rot.m21, m.rot.m22, m.rot.m23, m.tr.y],
    [m.rot.m31, m.rot.m32, m.rot.m33, m.tr.z], [m.bot.x, m.bot.y, m.bot.z, m.w]].map fun r => r.map OriginShift.intText)

/-- `Display for SeitzMatrixError`, matrices/mod.rs:20-26. -/
def SeitzMatrixError.text : SeitzMatrixError → List Char
  | .NotRotationMatrix m => m.matrixText ++ " is not a rotation matrix!".toList

/-- `rotation_type` with its error value, seitz_mat_impl.rs:110-126. -/
def M4.rotationTypeResult (m : M4) : Except SeitzMatrixError RotationType :=
  match m.rotationTypeF64 with
  | some t => .ok t
  | none => .error (.NotRotationMatrix m)

/-- `MatrixSymbolError`, src/hall_symbols/matrix_symbol/mod.rs:106-110. -/
inductive MatrixSymbolError
  | Invalid (s : MatrixSymbol)
  | IncompleteFields
deriving DecidableEq, Repr

/-- `Display for MatrixSymbolError`, matrix_symbol/mod.rs:112-121. -/
def MatrixSymbolError.text : MatrixSymbolError → List Char
  | .Invalid s => "Invalid symbol ".toList ++ s.debugText
  | .IncompleteFields => "Incomplete fields of `MatrixSymbol`".toList

/-- `get_rotation_matrix` with its error value, src/hall_symbols/matrix_symbol/matrices/rotation_matrices.rs:168-255. -/
def MatrixSymbol.rotationMatrixResult (s : MatrixSymbol) : Except MatrixSymbolError M4 :=
  match rotationMatrix s.nfoldBody s.nfoldDiag s.rotationAxis with
  | some m => .ok m
  | none => .error (.Invalid s)

/-- `set_transform` with its error value, rotation_matrices.rs:296-391. -/
def MatrixSymbol.setTransformResult (s : MatrixSymbol) (m : M4) : Except MatrixSymbolError M4 :=
  match setTransform s m with
  | some m => .ok m
  | none => .error (.Invalid s)

/-- `seitz_matrix` with its error value, matrices/mod.rs:29-43. -/
def MatrixSymbol.seitzResult (s : MatrixSymbol) : Except MatrixSymbolError M4 := do
  let r ← s.rotationMatrixResult
  let m ← s.setTransformResult r
  return if s.minusSign then setInversion (setTranslationFromSymbols s m) else setTranslationFromSymbols s m

/-- `build` with its error value, src/hall_symbols/matrix_symbol/builder.rs:51-64. -/
def MatrixSymbolBuilder.buildResult (b : MatrixSymbolBuilder) : Except MatrixSymbolError MatrixSymbol :=
  match b.build with
  | some m => .ok m
  | none => .error .IncompleteFields

end Verif
