import Mathlib.Analysis.SpecialFunctions.Trigonometric.Basic
import Verif.Spec.Group
import Verif.Spec.CrystalClass
import Verif.Spec.CrystalSystem

/-!
# Specification: unit cells and rigid motions

Lengths and angles of a cell, the distances they give, and the restrictions the International Tables list for each crystal
system; nothing here refers to position generation.
-/

namespace Verif

/-- A cell: lengths of the edges and angles between them (`α` between b and c, `β` between c and a, `γ` between a and b). -/
structure UnitCell where
  a : ℝ
  b : ℝ
  c : ℝ
  α : ℝ
  β : ℝ
  γ : ℝ

/-- Lengths are positive, angles between 0 and 180 degrees. -/
def UnitCell.Proper (u : UnitCell) : Prop :=
  0 < u.a ∧ 0 < u.b ∧ 0 < u.c ∧ (0 < u.α ∧ u.α < Real.pi) ∧ (0 < u.β ∧ u.β < Real.pi) ∧ (0 < u.γ ∧ u.γ < Real.pi)

/-- The square of the distance of two points given by their coordinates in the cell. -/
noncomputable def UnitCell.dist2 (u : UnitCell) (p q : Pt) : ℝ :=
  u.a ^ 2 * ((q.x - p.x : ℚ) : ℝ) ^ 2 + u.b ^ 2 * ((q.y - p.y : ℚ) : ℝ) ^ 2 + u.c ^ 2 * ((q.z - p.z : ℚ) : ℝ) ^ 2
    + 2 * (u.b * u.c * Real.cos u.α) * ((q.y - p.y : ℚ) : ℝ) * ((q.z - p.z : ℚ) : ℝ)
    + 2 * (u.c * u.a * Real.cos u.β) * ((q.z - p.z : ℚ) : ℝ) * ((q.x - p.x : ℚ) : ℝ)
    + 2 * (u.a * u.b * Real.cos u.γ) * ((q.x - p.x : ℚ) : ℝ) * ((q.y - p.y : ℚ) : ℝ)

/-- In this cell all operations of the group keep all distances. -/
def Rigid (n : HallSymbolNotation) (u : UnitCell) : Prop :=
  ∀ f, SpaceGroup n f → ∀ p q, u.dist2 (f p) (f q) = u.dist2 p q

/-- The restrictions on the cell listed for a number and setting code: by crystal system; for monoclinic codes the letter
tells the unique axis, for trigonal ones `R` tells rhombohedral axes. -/
def ConventionalCell (code : String) (u : UnitCell) : Prop :=
  match systemOfNumber (spaceGroupNumber code) with
  | .Triclinic => True
  | .Monoclinic =>
    if 'a' ∈ code.toList then u.β = Real.pi / 2 ∧ u.γ = Real.pi / 2
    else if 'b' ∈ code.toList then u.α = Real.pi / 2 ∧ u.γ = Real.pi / 2
    else u.α = Real.pi / 2 ∧ u.β = Real.pi / 2
  | .Orthorhombic => u.α = Real.pi / 2 ∧ u.β = Real.pi / 2 ∧ u.γ = Real.pi / 2
  | .Tetragonal => u.a = u.b ∧ u.α = Real.pi / 2 ∧ u.β = Real.pi / 2 ∧ u.γ = Real.pi / 2
  | .Trigonal =>
    if 'R' ∈ code.toList then (u.a = u.b ∧ u.b = u.c) ∧ u.α = u.β ∧ u.β = u.γ
    else u.a = u.b ∧ u.α = Real.pi / 2 ∧ u.β = Real.pi / 2 ∧ u.γ = 2 * Real.pi / 3
  | .Hexagonal => u.a = u.b ∧ u.α = Real.pi / 2 ∧ u.β = Real.pi / 2 ∧ u.γ = 2 * Real.pi / 3
  | .Cubic => (u.a = u.b ∧ u.b = u.c) ∧ u.α = Real.pi / 2 ∧ u.β = Real.pi / 2 ∧ u.γ = Real.pi / 2

end Verif
