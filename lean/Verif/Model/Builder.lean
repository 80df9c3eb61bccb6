import Verif.Model.Notation

/-! # `MatrixSymbolBuilder` and the setters of `MatrixSymbol`

Model of src/hall_symbols/matrix_symbol/builder.rs:18-64 and src/hall_symbols/matrix_symbol/mod.rs:57-105. A `&mut self`
method is a function from the old value to the new one; a chain of calls is a list of calls, applied from left to
right. -/

namespace Verif

/-- `MatrixSymbol::new_builder`, matrix_symbol/mod.rs:57-59 (`MatrixSymbolBuilder::default()`). -/
def newBuilder : MatrixSymbolBuilder := {}

namespace MatrixSymbolBuilder

/-- `set_minus_sign`, builder.rs:19-22. -/
def setMinusSign (b : MatrixSymbolBuilder) (v : Bool) : MatrixSymbolBuilder := { b with minusSign := some v }

/-- `set_nfold_body`, builder.rs:24-27. -/
def setNFoldBody (b : MatrixSymbolBuilder) (v : NFold) : MatrixSymbolBuilder := { b with nfoldBody := some v }

/-- `set_nfold_sub`, builder.rs:29-32. -/
def setNFoldSub (b : MatrixSymbolBuilder) (v : NFoldSub) : MatrixSymbolBuilder := { b with nfoldSub := some v }

/-- `set_nfold_diag`, builder.rs:34-37. -/
def setNFoldDiag (b : MatrixSymbolBuilder) (v : NFoldDiag) : MatrixSymbolBuilder := { b with nfoldDiag := some v }

/-- `set_rotation_axis`, builder.rs:39-42. -/
def setRotationAxis (b : MatrixSymbolBuilder) (v : RotationAxis) : MatrixSymbolBuilder :=
  { b with rotationAxis := some v }

/-- `set_translation_symbols`, builder.rs:44-50: the argument is stored as it is, so `None` clears the field. -/
def setTranslationSymbols (b : MatrixSymbolBuilder) (v : Option (List TranslationSymbol)) : MatrixSymbolBuilder :=
  { b with translationSymbols := v }

end MatrixSymbolBuilder

/-- One call of a setter of the builder (builder.rs:19-50). -/
inductive SetCall where
  | minusSign (v : Bool)
  | nfoldBody (v : NFold)
  | nfoldSub (v : NFoldSub)
  | nfoldDiag (v : NFoldDiag)
  | rotationAxis (v : RotationAxis)
  | translationSymbols (v : Option (List TranslationSymbol))
deriving DecidableEq, Repr

/-- The effect of one call on the builder (builder.rs:19-50). -/
def MatrixSymbolBuilder.call (b : MatrixSymbolBuilder) : SetCall → MatrixSymbolBuilder
  | .minusSign v => b.setMinusSign v
  | .nfoldBody v => b.setNFoldBody v
  | .nfoldSub v => b.setNFoldSub v
  | .nfoldDiag v => b.setNFoldDiag v
  | .rotationAxis v => b.setRotationAxis v
  | .translationSymbols v => b.setTranslationSymbols v

/-- `new_builder()`, then the calls one after the other, then `build()`: the chains of
matrix_symbol/mod.rs:136-144 and parser.rs:15-70. `none` is `Err(IncompleteFields)`. -/
def buildFrom (calls : List SetCall) : Option MatrixSymbol :=
  (calls.foldl MatrixSymbolBuilder.call newBuilder).build

/-- A call of a setter of `MatrixSymbol` itself, matrix_symbol/mod.rs:85-103 (there is none for the translation
symbols). -/
inductive SymbolCall where
  | minusSign (v : Bool)
  | nfoldBody (v : NFold)
  | nfoldSub (v : NFoldSub)
  | nfoldDiag (v : NFoldDiag)
  | rotationAxis (v : RotationAxis)
deriving DecidableEq, Repr

/-- The effect of `set_minus_sign`, `set_nfold_body`, `set_nfold_sub`, `set_nfold_diag` and `set_rotation_axis` of
`MatrixSymbol`, matrix_symbol/mod.rs:85-103. -/
def MatrixSymbol.call (m : MatrixSymbol) : SymbolCall → MatrixSymbol
  | .minusSign v => { m with minusSign := v }
  | .nfoldBody v => { m with nfoldBody := v }
  | .nfoldSub v => { m with nfoldSub := v }
  | .nfoldDiag v => { m with nfoldDiag := v }
  | .rotationAxis v => { m with rotationAxis := v }

end Verif
