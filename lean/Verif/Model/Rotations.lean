import Verif.Model.Notation

/-!
# From matrix symbols to Seitz matrices

Model of src/hall_symbols/matrix_symbol/matrices/rotation_matrices.rs and of `seitz_matrix` in matrices/mod.rs.
-/

namespace Verif

/-- A 4x4 matrix given as in the Rust source by three columns of the rotation part (rotation_matrices.rs:9-165 use
`Matrix4::from_column_slice` with zero translation and last row `(0,0,0,1)`). -/
def ofColumns (a b c : V3) : M4 :=
  ⟨⟨a.x, b.x, c.x, a.y, b.y, c.y, a.z, b.z, c.z⟩, V3.zero, V3.zero, 1⟩

/-- `get_rotation_matrix`, rotation_matrices.rs:168-256, with the matrices of :9-165; `none` is
`Err(MatrixSymbolError::Invalid)`. -/
def rotationMatrix : NFold → NFoldDiag → RotationAxis → Option M4
  | .N1, _, _ => some M4.one
  | .N2, .None, .X => some (ofColumns ⟨1, 0, 0⟩ ⟨0, -1, 0⟩ ⟨0, 0, -1⟩)
  | .N2, .None, .Y => some (ofColumns ⟨-1, 0, 0⟩ ⟨0, 1, 0⟩ ⟨0, 0, -1⟩)
  | .N2, .None, .Z => some (ofColumns ⟨-1, 0, 0⟩ ⟨0, -1, 0⟩ ⟨0, 0, 1⟩)
  | .N2, .None, .Omitted => none
  | .N2, .SingleQuote, .Omitted => none
  | .N2, .SingleQuote, .X => some (ofColumns ⟨-1, 0, 0⟩ ⟨0, 0, -1⟩ ⟨0, -1, 0⟩)
  | .N2, .SingleQuote, .Y => some (ofColumns ⟨0, 0, -1⟩ ⟨0, -1, 0⟩ ⟨-1, 0, 0⟩)
  | .N2, .SingleQuote, .Z => some (ofColumns ⟨0, -1, 0⟩ ⟨-1, 0, 0⟩ ⟨0, 0, -1⟩)
  | .N2, .DoubleQuote, .Omitted => none
  | .N2, .DoubleQuote, .X => some (ofColumns ⟨-1, 0, 0⟩ ⟨0, 0, 1⟩ ⟨0, 1, 0⟩)
  | .N2, .DoubleQuote, .Y => some (ofColumns ⟨0, 0, 1⟩ ⟨0, -1, 0⟩ ⟨1, 0, 0⟩)
  | .N2, .DoubleQuote, .Z => some (ofColumns ⟨0, 1, 0⟩ ⟨1, 0, 0⟩ ⟨0, 0, -1⟩)
  | .N2, .Asterisk, _ => none
  | .N3, .None, .Omitted => none
  | .N3, .None, .X => some (ofColumns ⟨1, 0, 0⟩ ⟨0, 0, 1⟩ ⟨0, -1, -1⟩)
  | .N3, .None, .Y => some (ofColumns ⟨-1, 0, -1⟩ ⟨0, 1, 0⟩ ⟨1, 0, 0⟩)
  | .N3, .None, .Z => some (ofColumns ⟨0, 1, 0⟩ ⟨-1, -1, 0⟩ ⟨0, 0, 1⟩)
  | .N3, .SingleQuote, _ => none
  | .N3, .DoubleQuote, _ => none
  | .N3, .Asterisk, _ => some (ofColumns ⟨0, 1, 0⟩ ⟨0, 0, 1⟩ ⟨1, 0, 0⟩)
  | .N4, .None, .Omitted => none
  | .N4, .None, .X => some (ofColumns ⟨1, 0, 0⟩ ⟨0, 0, 1⟩ ⟨0, -1, 0⟩)
  | .N4, .None, .Y => some (ofColumns ⟨0, 0, -1⟩ ⟨0, 1, 0⟩ ⟨1, 0, 0⟩)
  | .N4, .None, .Z => some (ofColumns ⟨0, 1, 0⟩ ⟨-1, 0, 0⟩ ⟨0, 0, 1⟩)
  | .N4, _, _ => none
  | .N6, .None, .Omitted => none
  | .N6, .None, .X => some (ofColumns ⟨1, 0, 0⟩ ⟨0, 1, 1⟩ ⟨0, -1, 0⟩)
  | .N6, .None, .Y => some (ofColumns ⟨0, 0, -1⟩ ⟨0, 1, 0⟩ ⟨1, 0, 1⟩)
  | .N6, .None, .Z => some (ofColumns ⟨1, 1, 0⟩ ⟨-1, 0, 0⟩ ⟨0, 0, 1⟩)
  | .N6, _, _ => none
  | .Invalid, _, _ => none

/-- `set_inversion`, rotation_matrices.rs:258-264: minus the 3x3 part, the fourth column kept, last row
`(0,0,0,_)` from `to_homogeneous`. -/
def setInversion (m : M4) : M4 := ⟨m.rot.map (fun v => -v), m.tr, V3.zero, m.w⟩

/-- The column `(q along the axis, 1)` of the `match self.rotation_axis` blocks in `set_transform`,
rotation_matrices.rs:305-390. -/
def axisColumn (q : Int) : RotationAxis → Option V3
  | .Omitted => none
  | .X => some ⟨q, 0, 0⟩
  | .Y => some ⟨0, q, 0⟩
  | .Z => some ⟨0, 0, q⟩

/-- The component along the axis used by each arm of `set_transform`, rotation_matrices.rs:300-391:
outer `none` = `Err`, inner `none` = matrix unchanged. -/
def screwComponent : NFold → NFoldSub → Option (Option Int)
  | .Invalid, _ => none
  | .N1, _ => some none
  | .N2, _ => some none
  | .N3, .N1 => some (some 4)
  | .N3, .N2 => some (some 8)
  | .N3, .None => some none
  | .N3, _ => none
  | .N4, .None => some none
  | .N4, .N1 => some (some 3)
  | .N4, .N3 => some (some 9)
  | .N4, _ => none
  | .N6, .None => some none
  | .N6, .N1 => some (some 2)
  | .N6, .N2 => some (some 4)
  | .N6, .N3 => none
  | .N6, .N4 => some (some 8)
  | .N6, .N5 => some (some 10)

/-- `set_transform`, rotation_matrices.rs:296-392 (`set_column(3, ..)` replaces the fourth column). -/
def setTransform (s : MatrixSymbol) (m : M4) : Option M4 :=
  match screwComponent s.nfoldBody s.nfoldSub with
  | none => none
  | some none => some m
  | some (some q) =>
    match axisColumn q s.rotationAxis with
    | none => none
    | some t => some { m with tr := t, w := 1 }

/-- The reduction closure of `set_translation_from_symbols`, rotation_matrices.rs:276-287. -/
def reduceTranslation (v : Int) : Int :=
  if ¬ (0 ≤ v ∧ v < 12) then
    let r := Int.tmod v 12
    if r < 0 then r + base else r
  else v

/-- `translations.iter().map(translation_vector).sum()`, rotation_matrices.rs:272-275. -/
def sumTranslations (l : List TranslationSymbol) : V3 :=
  l.foldl (fun acc s => acc.add s.vector) V3.zero

/-- `set_translation_from_symbols`, rotation_matrices.rs:266-294 (`to_homogeneous` of a vector appends 0). -/
def setTranslationFromSymbols (s : MatrixSymbol) (m : M4) : M4 :=
  match s.translationSymbols with
  | some l => { m with tr := m.tr.add ((sumTranslations l).map reduceTranslation) }
  | none => m

/-- `MatrixSymbol::seitz_matrix`, src/hall_symbols/matrix_symbol/matrices/mod.rs:29-43; `none` is `Err`. -/
def MatrixSymbol.seitzMatrix (s : MatrixSymbol) : Option M4 :=
  match rotationMatrix s.nfoldBody s.nfoldDiag s.rotationAxis with
  | none => none
  | some rot =>
    match setTransform s rot with
    | none => none
    | some m =>
      let m' := setTranslationFromSymbols s m
      if s.minusSign then some (setInversion m') else some m'

end Verif
