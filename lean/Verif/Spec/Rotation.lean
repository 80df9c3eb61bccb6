import Verif.Model.Seitz

/-!
# Specification: rotations, orders, holohedries
-/

namespace Verif

/-- Powers of an integer matrix. -/
def M3.pow (a : M3) : Nat → M3
  | 0 => ⟨1, 0, 0, 0, 1, 0, 0, 0, 1⟩
  | k + 1 => (a.pow k).mul a

/-- Minus a matrix. -/
def M3.neg (a : M3) : M3 := ⟨-a.m11, -a.m12, -a.m13, -a.m21, -a.m22, -a.m23, -a.m31, -a.m32, -a.m33⟩

/-- Transpose. -/
def M3.transpose (a : M3) : M3 := ⟨a.m11, a.m21, a.m31, a.m12, a.m22, a.m32, a.m13, a.m23, a.m33⟩

/-- `n` is the exact multiplicative order of `a`. -/
def M3.HasOrder (a : M3) (n : Nat) : Prop := 0 < n ∧ a.pow n = M3.one ∧ ∀ j, 0 < j → j < n → a.pow j ≠ M3.one

/-- `a` has finite multiplicative order. -/
def M3.FiniteOrder (a : M3) : Prop := ∃ k, 0 < k ∧ a.pow k = M3.one

/-- The improper types (those written with a bar, and mirror and inversion). -/
def RotationType.improper : RotationType → Bool
  | .I | .M | .M3 | .M4 | .M6 => true
  | .E | .N2 | .N3 | .N4 | .N6 => false

/-- The ten pairs (determinant, trace) of crystallographic rotations. -/
def crystallographicPairs : List (Int × Int) :=
  [(1, 3), (1, -1), (1, 0), (1, 1), (1, 2), (-1, -3), (-1, 1), (-1, 0), (-1, -1), (-1, -2)]

/-- Symmetries of a cubic cell: integer matrices preserving `x² + y² + z²`. -/
def M3.Cubic (a : M3) : Prop := a.transpose.mul a = M3.one

/-- The hexagonal metric `2x² - 2xy + 2y² + z²`. -/
def hexMetric : M3 := ⟨2, -1, 0, -1, 2, 0, 0, 0, 1⟩

/-- Symmetries of a hexagonal cell: integer matrices preserving the hexagonal metric. -/
def M3.Hexagonal (a : M3) : Prop := (a.transpose.mul hexMetric).mul a = hexMetric

end Verif
