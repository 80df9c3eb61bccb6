import Mathlib.Data.Real.Basic
import Verif.Spec.Polar
import Verif.Spec.CrystalClass
import Verif.Spec.CrystalSystem

/-!
# Specification: property tensors

Second- and third-rank tensors as functions of two and three displacements; nothing here refers to position generation.
-/

namespace Verif

/-- The sum of two displacements. -/
def Pt.toward (u v : Pt) : Pt := ⟨u.x + v.x, u.y + v.y, u.z + v.z⟩

/-- How the map `f` turns the displacement `u` from `p`: from `f p` to `f (p + u)`. -/
def turned (f : Pt → Pt) (p u : Pt) : Pt :=
  ⟨(f (p.toward u)).x - (f p).x, (f (p.toward u)).y - (f p).y, (f (p.toward u)).z - (f p).z⟩

/-- A third-rank tensor: a real number for every three displacements, additive in each of them. -/
structure IsTensor (T : Pt → Pt → Pt → ℝ) : Prop where
  first : ∀ u u' v w, T (u.toward u') v w = T u v w + T u' v w
  second : ∀ u v v' w, T u (v.toward v') w = T u v w + T u v' w
  third : ∀ u v w w', T u v (w.toward w') = T u v w + T u v w'

/-- All operations of the group leave the tensor alone. -/
def TensorKept (n : HallSymbolNotation) (T : Pt → Pt → Pt → ℝ) : Prop :=
  ∀ f, SpaceGroup n f → ∀ p u v w, T (turned f p u) (turned f p v) (turned f p w) = T u v w

/-- The group leaves room for piezoelectricity: some third-rank tensor, symmetric in the last two places and not zero, is left
alone by all operations. -/
def Piezoelectric (n : HallSymbolNotation) : Prop :=
  ∃ T, IsTensor T ∧ (∀ u v w, T u v w = T u w v) ∧ (∃ u v w, T u v w ≠ 0) ∧ TensorKept n T

/-- The numbers of the 130 types of the 20 piezoelectric classes: 1, 2, m, 222, mm2, 4, -4, 422, 4mm, -42m, 3, 32, 3m, 6, -6,
622, 6mm, -62m, 23, -43m (all classes without a centre, but 432). -/
def piezoNumbers : List (Nat × Nat) :=
  [(1, 1), (3, 9), (16, 46), (75, 82), (89, 122), (143, 146), (149, 161), (168, 174), (177, 190), (195, 199), (215, 220)]

/-- A symmetric second-rank tensor: a real number for every two displacements, symmetric and additive. -/
structure IsForm (B : Pt → Pt → ℝ) : Prop where
  symm : ∀ u v, B u v = B v u
  first : ∀ u u' v, B (u.toward u') v = B u v + B u' v

/-- All operations of the group leave the tensor alone. -/
def FormKept (n : HallSymbolNotation) (B : Pt → Pt → ℝ) : Prop :=
  ∀ f, SpaceGroup n f → ∀ p u v, B (turned f p u) (turned f p v) = B u v

/-- The edges of the cell as displacements. -/
def edgeA : Pt := ⟨1, 0, 0⟩
@[inherit_doc edgeA] def edgeB : Pt := ⟨0, 1, 0⟩
@[inherit_doc edgeA] def edgeC : Pt := ⟨0, 0, 1⟩

/-- What the crystal system of a number and setting code demands of a symmetric second-rank tensor, by its values on the edges
of the cell: for monoclinic codes the letter tells the unique axis, for trigonal ones `R` tells rhombohedral axes. -/
def ConventionalForm (code : String) (B : Pt → Pt → ℝ) : Prop :=
  let aa := B edgeA edgeA
  let bb := B edgeB edgeB
  let cc := B edgeC edgeC
  let bc := B edgeB edgeC
  let ca := B edgeC edgeA
  let ab := B edgeA edgeB
  match systemOfNumber (spaceGroupNumber code) with
  | .Triclinic => True
  | .Monoclinic =>
    if 'a' ∈ code.toList then ca = 0 ∧ ab = 0
    else if 'b' ∈ code.toList then bc = 0 ∧ ab = 0
    else bc = 0 ∧ ca = 0
  | .Orthorhombic => bc = 0 ∧ ca = 0 ∧ ab = 0
  | .Tetragonal => aa = bb ∧ bc = 0 ∧ ca = 0 ∧ ab = 0
  | .Trigonal =>
    if 'R' ∈ code.toList then (aa = bb ∧ bb = cc) ∧ bc = ca ∧ ca = ab
    else aa = bb ∧ bc = 0 ∧ ca = 0 ∧ 2 * ab = - aa
  | .Hexagonal => aa = bb ∧ bc = 0 ∧ ca = 0 ∧ 2 * ab = - aa
  | .Cubic => (aa = bb ∧ bb = cc) ∧ bc = 0 ∧ ca = 0 ∧ ab = 0

/-- The group leaves room for optical activity: some symmetric second-rank tensor that is not zero is left alone by the
operations that keep the hand and changes its sign under those that change it. -/
def OpticallyActive (n : HallSymbolNotation) : Prop :=
  ∃ B, IsForm B ∧ (∃ u v, B u v ≠ 0) ∧
    ∀ m : M4, SpaceGroup n m.act → ∀ p u v, B (turned m.act p u) (turned m.act p v) = m.rot.det * B u v

/-- The numbers of the 105 types of the 15 classes with optical activity: 1, 2, m, 222, mm2, 4, -4, 422, -42m, 3, 32, 6, 622,
23, 432. -/
def opticalNumbers : List (Nat × Nat) :=
  [(1, 1), (3, 9), (16, 46), (75, 82), (89, 98), (111, 122), (143, 146), (149, 155), (168, 173), (177, 182), (195, 199), (207, 214)]

end Verif
