import Verif.Spec.Syntax
import Verif.Spec.Symbol

/-!
# Specification: the group a written Hall symbol denotes

From the characters of a symbol to a group of maps of space, following the published rules of the notation
(S. R. Hall, "Space-group notation with an explicit origin", Acta Cryst. A37 (1981) 517; International Tables vol. B,
A1.4.2.3). Nothing here refers to the parser, to the matrices of the code, to its defaults or to position generation;
the code's types are used only as names of digits and letters.
-/

namespace Verif

/-- The direction of the axis of the symbol in a given place (0, 1, 2, ...) when no mark is written, from the order
`prev` of the symbol before it: the first about c; a 2 in second place about a after 2 or 4, about a-b after 3 or 6; a 3 in
third place about a+b+c. -/
def unmarkedDirection (place : Nat) (prev : Option NFold) (fold : NFold) : Option V3 :=
  if place = 0 then some ⟨0, 0, 1⟩
  else if place = 1 ∧ fold = .N2 ∧ (prev = some .N2 ∨ prev = some .N4) then some ⟨1, 0, 0⟩
  else if place = 1 ∧ fold = .N2 ∧ (prev = some .N3 ∨ prev = some .N6) then some ⟨1, -1, 0⟩
  else if place = 2 ∧ fold = .N3 then some ⟨1, 1, 1⟩
  else none

/-- The direction a mark stands for: x, y, z the cell edges, `*` the body diagonal, `'` and `"` the face diagonals
perpendicular to the axis `prev` of the symbol before it. -/
def markedDirection (prev : Option V3) : AxisMark → Option V3
  | .x => some ⟨1, 0, 0⟩
  | .y => some ⟨0, 1, 0⟩
  | .z => some ⟨0, 0, 1⟩
  | .star => some ⟨1, 1, 1⟩
  | .quote =>
    if prev = some ⟨1, 0, 0⟩ then some ⟨0, 1, -1⟩
    else if prev = some ⟨0, 1, 0⟩ then some ⟨1, 0, -1⟩
    else if prev = some ⟨0, 0, 1⟩ then some ⟨1, -1, 0⟩
    else none
  | .dquote =>
    if prev = some ⟨1, 0, 0⟩ then some ⟨0, 1, 1⟩
    else if prev = some ⟨0, 1, 0⟩ then some ⟨1, 0, 1⟩
    else if prev = some ⟨0, 0, 1⟩ then some ⟨1, 1, 0⟩
    else none

/-- The axis of a symbol, from its place and from the order and the axis of the symbol before it. -/
def hallDirection (place : Nat) (prev : Option (NFold × Option V3)) (w : Written) : Option V3 :=
  match w.axis with
  | none => unmarkedDirection place (prev.map (·.1)) w.fold
  | some mark => markedDirection (prev.bind (·.2)) mark

/-- The symbols of a list with their axes. -/
def withDirections (place : Nat) (prev : Option (NFold × Option V3)) : List Written → List (Written × Option V3)
  | [] => []
  | w :: ws => (w, hallDirection place prev w) :: withDirections (place + 1) (some (w.fold, hallDirection place prev w)) ws

/-- The cell a rotation belongs to: hexagonal with unique axis `d` for orders 3 and 6 about a cell edge, cubic otherwise. -/
def hallMetric (f : NFold) (d : V3) : M3 :=
  if f = .N3 ∨ f = .N6 then
    if d = ⟨1, 0, 0⟩ then hexMetricAbout .X
    else if d = ⟨0, 1, 0⟩ then hexMetricAbout .Y
    else if d = ⟨0, 0, 1⟩ then hexMetricAbout .Z
    else M3.one
  else M3.one

/-- `R` is the rotation of order `f` about `d`: a symmetry of the cell, of determinant 1 and of that exact order, which
fixes `d` and turns counter-clockwise about it. Order 1 is the identity and needs no axis. -/
def HallRotation (f : NFold) (d : Option V3) (R : M3) : Prop :=
  if f = .N1 then R = M3.one
  else ∃ v, d = some v ∧ R.Preserves (hallMetric f v) ∧ R.det = 1 ∧ R.HasOrder f.number ∧ R.mulVec v = v ∧
    (3 ≤ f.number → TurnsCounterClockwise R v)

/-- `f` is the operation of one symbol: the rotation, negated after a minus sign, then the sum of `T/N` along the axis
for a subscript `T` and of the translations of the letters. -/
def HallOperation (w : Written) (d : Option V3) (f : Pt → Pt) : Prop :=
  ∃ R, HallRotation w.fold d R ∧
    let s : ℚ := if w.minus then -1 else 1
    let a : V3 := d.getD ⟨0, 0, 0⟩
    let t : ℚ := w.sub.number / w.fold.number
    ∀ p, f p = ⟨s * (R.m11 * p.x + R.m12 * p.y + R.m13 * p.z) + t * a.x + (totalShift w.letters).x,
      s * (R.m21 * p.x + R.m22 * p.y + R.m23 * p.z) + t * a.y + (totalShift w.letters).y,
      s * (R.m31 * p.x + R.m32 * p.y + R.m33 * p.z) + t * a.z + (totalShift w.letters).z⟩

/-- The centring translations of a lattice letter, as fractions of the cell edges. -/
def centringVectors : Lattices → List Pt
  | .P => []
  | .A => [⟨0, 1 / 2, 1 / 2⟩]
  | .B => [⟨1 / 2, 0, 1 / 2⟩]
  | .C => [⟨1 / 2, 1 / 2, 0⟩]
  | .I => [⟨1 / 2, 1 / 2, 1 / 2⟩]
  | .R => [⟨2 / 3, 1 / 3, 1 / 3⟩, ⟨1 / 3, 2 / 3, 2 / 3⟩]
  | .F => [⟨0, 1 / 2, 1 / 2⟩, ⟨1 / 2, 0, 1 / 2⟩, ⟨1 / 2, 1 / 2, 0⟩]

/-- The group denoted by `(-)L N N N (v)`: generated by the translations of the cell and of the centring, the inversion
(after a leading minus sign) and the operations of the symbols, the whole moved by `v/12`. -/
inductive HallGroup (minus : Bool) (l : Lattices) (ws : List Written) (v : V3) : (Pt → Pt) → Prop
  | one : HallGroup minus l ws v id
  | cell (k : V3) : HallGroup minus l ws v (fun p => p.addCell k)
  | centring {q : Pt} : q ∈ centringVectors l → HallGroup minus l ws v (fun p => ⟨p.x + q.x, p.y + q.y, p.z + q.z⟩)
  | inversion : minus = true → HallGroup minus l ws v
      (fun p => (⟨-(p.subTwelfths v).x, -(p.subTwelfths v).y, -(p.subTwelfths v).z⟩ : Pt).addTwelfths v)
  | symbol {w : Written} {d : Option V3} {f : Pt → Pt} : (w, d) ∈ withDirections 0 none ws → HallOperation w d f →
      HallGroup minus l ws v (fun p => (f (p.subTwelfths v)).addTwelfths v)
  | comp {f g : Pt → Pt} : HallGroup minus l ws v f → HallGroup minus l ws v g → HallGroup minus l ws v (f ∘ g)
  | inv {f g : Pt → Pt} : HallGroup minus l ws v f → f ∘ g = id → g ∘ f = id → HallGroup minus l ws v g

/-- The subscripts of the notation: `31 32 41 43 61 62 64 65`, about a cell edge. -/
def ScrewWritten (w : Written) (d : Option V3) : Prop :=
  w.sub = .None ∨ ((w.fold.number, w.sub.number) ∈ [(3, 1), (3, 2), (4, 1), (4, 3), (6, 1), (6, 2), (6, 4), (6, 5)] ∧
    (d = some ⟨1, 0, 0⟩ ∨ d = some ⟨0, 1, 0⟩ ∨ d = some ⟨0, 0, 1⟩))

/-- The rotations of the notation: order 1; orders 2, 3, 4, 6 about a cell edge; order 2 about a face diagonal; order 3 about
the body diagonal. -/
def RotationWritten (w : Written) (d : Option V3) : Prop :=
  match d with
  | none => w.fold = .N1
  | some v => w.fold = .N1 ∨ v ∈ [⟨1, 0, 0⟩, ⟨0, 1, 0⟩, ⟨0, 0, 1⟩] ∨ (w.fold = .N3 ∧ v = ⟨1, 1, 1⟩) ∨
      (w.fold = .N2 ∧ v ∈ [⟨0, 1, -1⟩, ⟨1, 0, -1⟩, ⟨1, -1, 0⟩, ⟨0, 1, 1⟩, ⟨1, 0, 1⟩, ⟨1, 1, 0⟩])

/-- A list of symbols of the notation: every order, axis and subscript is one of the defined ones. -/
def HallSymbols (ws : List Written) : Prop :=
  ∀ wd ∈ withDirections 0 none ws, RotationWritten wd.1 wd.2 ∧ ScrewWritten wd.1 wd.2

/-- The text after the symbols: blanks (no shift, `v = 0`) or a shift of three integers, with nothing behind it. -/
inductive ShiftWritten : List Char → V3 → Prop
  | none {tail : List Char} : (∀ c ∈ tail, Blank c) → ShiftWritten tail ⟨0, 0, 0⟩
  | shift {tail : List Char} {a b c : Int} : ShiftText tail [a, b, c] [] → ShiftWritten tail ⟨a, b, c⟩

/-- The double of `v/12` is a translation of the lattice. -/
def DoubleIsLattice (l : Lattices) (v : V3) : Prop :=
  ∃ q ∈ (⟨0, 0, 0⟩ : Pt) :: centringVectors l, ∃ k : V3,
    (2 * v.x / 12 : ℚ) = q.x + k.x ∧ (2 * v.y / 12 : ℚ) = q.y + k.y ∧ (2 * v.z / 12 : ℚ) = q.z + k.z

/-- `f` is a translation of the lattice. -/
def IsCentringTranslation (l : Lattices) (f : Pt → Pt) : Prop :=
  ∃ q ∈ (⟨0, 0, 0⟩ : Pt) :: centringVectors l, ∃ k : V3, ∀ p, f p = ⟨p.x + q.x + k.x, p.y + q.y + k.y, p.z + q.z + k.z⟩

/-- No `'` or `"` is written (except on a 1, where marks mean nothing). -/
def NoDiagonal (w : Written) : Prop := w.fold = .N1 ∨ (w.axis ≠ some .quote ∧ w.axis ≠ some .dquote)

instance (w : Written) : Decidable (NoDiagonal w) := inferInstanceAs (Decidable (_ ∨ _))

/-- The marks of a 2-fold in second place that have their published meaning in this library: after 2 or 4 none or `x` (or a
diagonal after `2x`, `4x`); after 3 or 6 none, or a diagonal when the first axis is c. -/
def SecondAsRead (a b : Written) : Prop :=
  if b.fold = .N2 ∧ (a.fold = .N2 ∨ a.fold = .N4) then
    b.axis ≠ some .y ∧ b.axis ≠ some .z ∧ (NoDiagonal b ∨ a.axis = some .x)
  else if b.fold = .N2 ∧ (a.fold = .N3 ∨ a.fold = .N6) then
    b.axis ≠ some .x ∧ b.axis ≠ some .y ∧ b.axis ≠ some .z ∧ (NoDiagonal b ∨ a.axis = none ∨ a.axis = some .z)
  else NoDiagonal b

instance (a b : Written) : Decidable (SecondAsRead a b) := by unfold SecondAsRead; infer_instance

/-- The same in third place: a 3-fold has no mark or `*`, other orders have no diagonal. -/
def ThirdAsRead (c : Written) : Prop := NoDiagonal c ∧ (c.fold = .N3 → c.axis = none ∨ c.axis = some .star)

instance (c : Written) : Decidable (ThirdAsRead c) := by unfold ThirdAsRead; infer_instance

/-- The lists of symbols whose axis marks have their published meaning in this library. -/
def AxesAsRead : List Written → Prop
  | [] => True
  | [a] => NoDiagonal a
  | [a, b] => NoDiagonal a ∧ SecondAsRead a b
  | a :: b :: c :: rest => NoDiagonal a ∧ SecondAsRead a b ∧ ThirdAsRead c ∧ ∀ w ∈ rest, NoDiagonal w

end Verif
