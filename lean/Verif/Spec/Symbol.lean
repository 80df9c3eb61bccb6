import Mathlib.Algebra.Field.Rat
import Verif.Spec.Rotation
import Verif.Spec.Affine
import Verif.Model.Notation

/-!
# Specification: what the parts of a matrix symbol mean

Tables taken from the description of Hall symbols (S. R. Hall, "Space-group notation with an explicit origin"), not from
the matrices in the code.
-/

namespace Verif

/-- The order written in the symbol. -/
def NFold.number : NFold → Nat
  | .Invalid => 0
  | .N1 => 1
  | .N2 => 2
  | .N3 => 3
  | .N4 => 4
  | .N6 => 6

/-- The subscript written in the symbol (0 when absent). -/
def NFoldSub.number : NFoldSub → Nat
  | .None => 0
  | .N1 => 1
  | .N2 => 2
  | .N3 => 3
  | .N4 => 4
  | .N5 => 5

/-- Direction of a principal axis; `none` when no axis is known. -/
def RotationAxis.direction : RotationAxis → Option V3
  | .Omitted => none
  | .X => some ⟨1, 0, 0⟩
  | .Y => some ⟨0, 1, 0⟩
  | .Z => some ⟨0, 0, 1⟩

/-- Direction of the rotation axis: a principal axis, a face diagonal (`'`: b-c, a-c, a-b; `"`: b+c, a+c, a+b) or the
body diagonal a+b+c (`*`). -/
def axisDirection : NFoldDiag → RotationAxis → Option V3
  | .None, a => a.direction
  | .SingleQuote, .X => some ⟨0, 1, -1⟩
  | .SingleQuote, .Y => some ⟨1, 0, -1⟩
  | .SingleQuote, .Z => some ⟨1, -1, 0⟩
  | .DoubleQuote, .X => some ⟨0, 1, 1⟩
  | .DoubleQuote, .Y => some ⟨1, 0, 1⟩
  | .DoubleQuote, .Z => some ⟨1, 1, 0⟩
  | .Asterisk, _ => some ⟨1, 1, 1⟩
  | _, .Omitted => none

/-- Which combinations of order and axis are defined: order 1 with anything, orders 2, 3, 4, 6 about a principal axis,
order 2 about a face diagonal, order 3 about the body diagonal. -/
inductive AllowedRotation : NFold → NFoldDiag → RotationAxis → Prop
  | one (d : NFoldDiag) (a : RotationAxis) : AllowedRotation .N1 d a
  | principal {f : NFold} {a : RotationAxis} : 2 ≤ f.number → a ≠ .Omitted → AllowedRotation f .None a
  | face {d : NFoldDiag} {a : RotationAxis} : d = .SingleQuote ∨ d = .DoubleQuote → a ≠ .Omitted → AllowedRotation .N2 d a
  | body (a : RotationAxis) : AllowedRotation .N3 .Asterisk a

/-- Which subscripts are accepted: none; anything on orders 1 and 2 (where it has no effect); 1 2 on order 3; 1 3 on
order 4; 1 2 4 5 on order 6. A subscript on orders 3, 4, 6 needs a principal axis to point along. -/
def AllowedSubscript (f : NFold) (sub : NFoldSub) (a : RotationAxis) : Prop :=
  f.number ≤ 2 ∨ sub = .None ∨
    (a ≠ .Omitted ∧ (f.number, sub.number) ∈ [(3, 1), (3, 2), (4, 1), (4, 3), (6, 1), (6, 2), (6, 4), (6, 5)])

/-- Determinant of the matrix with columns `a`, `b`, `c` (signed volume). -/
def V3.volume (a b c : V3) : Int :=
  a.x * (b.y * c.z - b.z * c.y) - a.y * (b.x * c.z - b.z * c.x) + a.z * (b.x * c.y - b.y * c.x)

/-- `v` is parallel to `d`. -/
def V3.Parallel (v d : V3) : Prop :=
  v.y * d.z - v.z * d.y = 0 ∧ v.z * d.x - v.x * d.z = 0 ∧ v.x * d.y - v.y * d.x = 0

/-- Seen with `d` pointing at the observer, `R` turns every vector off the axis counter-clockwise by less than half a
turn. -/
def TurnsCounterClockwise (R : M3) (d : V3) : Prop := ∀ v : V3, ¬ v.Parallel d → 0 < V3.volume d v (R.mulVec v)

/-- `R` preserves the metric `g` (a symmetric matrix). -/
def M3.Preserves (R g : M3) : Prop := (R.transpose.mul g).mul R = g

/-- The metric of a hexagonal cell with unique axis `a` (up to scale along the unique axis). -/
def hexMetricAbout : RotationAxis → M3
  | .X => ⟨1, 0, 0, 0, 2, -1, 0, -1, 2⟩
  | .Y => ⟨2, 0, -1, 0, 1, 0, -1, 0, 2⟩
  | _ => ⟨2, -1, 0, -1, 2, 0, 0, 0, 1⟩

/-- The translation a letter stands for, as a fraction of the cell edges. -/
def TranslationSymbol.shift : TranslationSymbol → Pt
  | .A => ⟨1 / 2, 0, 0⟩
  | .B => ⟨0, 1 / 2, 0⟩
  | .C => ⟨0, 0, 1 / 2⟩
  | .N => ⟨1 / 2, 1 / 2, 1 / 2⟩
  | .U => ⟨1 / 4, 0, 0⟩
  | .V => ⟨0, 1 / 4, 0⟩
  | .W => ⟨0, 0, 1 / 4⟩
  | .D => ⟨1 / 4, 1 / 4, 1 / 4⟩
  | .Invalid => ⟨0, 0, 0⟩

/-- The sum of the translations of a list of letters. -/
def totalShift (l : List TranslationSymbol) : Pt :=
  ⟨(l.map fun s => s.shift.x).sum, (l.map fun s => s.shift.y).sum, (l.map fun s => s.shift.z).sum⟩

end Verif
