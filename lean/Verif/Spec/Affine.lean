import Mathlib.Data.Rat.Defs
import Mathlib.Algebra.Ring.Rat
import Verif.Model.Linear

/-!
# Specification: what a Seitz matrix means

Independent of the code's arithmetic: a matrix acts on points with rational fractional coordinates; translations are
counted in twelfths of a cell edge.
-/

namespace Verif

/-- A point given by rational fractional coordinates. -/
@[ext] structure Pt where
  x : ℚ
  y : ℚ
  z : ℚ

namespace Pt

/-- The point moved by a whole number of cells. -/
def addCell (p : Pt) (k : V3) : Pt := ⟨p.x + k.x, p.y + k.y, p.z + k.z⟩

/-- The point moved by `v/12`. -/
def addTwelfths (p : Pt) (v : V3) : Pt := ⟨p.x + v.x / 12, p.y + v.y / 12, p.z + v.z / 12⟩

/-- The point moved by `-v/12`. -/
def subTwelfths (p : Pt) (v : V3) : Pt := ⟨p.x - v.x / 12, p.y - v.y / 12, p.z - v.z / 12⟩

end Pt

/-- The operation a Seitz matrix stands for: rotation part times the coordinates plus translation/12. -/
def M4.act (m : M4) (p : Pt) : Pt :=
  ⟨m.rot.m11 * p.x + m.rot.m12 * p.y + m.rot.m13 * p.z + m.tr.x / 12,
   m.rot.m21 * p.x + m.rot.m22 * p.y + m.rot.m23 * p.z + m.tr.y / 12,
   m.rot.m31 * p.x + m.rot.m32 * p.y + m.rot.m33 * p.z + m.tr.z / 12⟩

/-- The last row is `(0,0,0,1)`: every matrix the crate produces from symbols. -/
def M4.Affine (m : M4) : Prop := m.bot = ⟨0, 0, 0⟩ ∧ m.w = 1

/-- Two maps agree up to one fixed whole-cell translation. -/
def SameModCell (f g : Pt → Pt) : Prop := ∃ k : V3, ∀ p, f p = (g p).addCell k

end Verif
