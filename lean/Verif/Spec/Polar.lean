import Verif.Spec.Group

/-! # Specification: inversion centres, proper groups and polar directions -/

namespace Verif

/-- Some operation of the group is the inversion at a point `c`. -/
def HasCentre (n : HallSymbolNotation) : Prop :=
  ∃ f, SpaceGroup n f ∧ ∃ c : Pt, ∀ p, f p = ⟨2 * c.x - p.x, 2 * c.y - p.y, 2 * c.z - p.z⟩

/-- No operation of the group changes the hand: all rotation parts have determinant 1. -/
def ProperOnly (n : HallSymbolNotation) : Prop := ∀ r ∈ PointGroup n, r.det = 1

/-- Some displacement other than zero is kept by all operations of the group. -/
def Polar (n : HallSymbolNotation) : Prop :=
  ∃ v : Pt, v ≠ ⟨0, 0, 0⟩ ∧ ∀ f, SpaceGroup n f → ∀ p : Pt,
    f ⟨p.x + v.x, p.y + v.y, p.z + v.z⟩ = ⟨(f p).x + v.x, (f p).y + v.y, (f p).z + v.z⟩

/-- `k` lies in one of the ranges. -/
def inRanges (k : Nat) (l : List (Nat × Nat)) : Prop := ∃ r ∈ l, r.1 ≤ k ∧ k ≤ r.2

instance (k : Nat) (l : List (Nat × Nat)) : Decidable (inRanges k l) := by unfold inRanges; infer_instance

/-- The numbers of the 92 centrosymmetric types: classes -1, 2/m, mmm, 4/m, 4/mmm, -3, -3m, 6/m, 6/mmm, m-3, m-3m. -/
def centricNumbers : List (Nat × Nat) :=
  [(2, 2), (10, 15), (47, 74), (83, 88), (123, 142), (147, 148), (162, 167), (175, 176), (191, 194), (200, 206), (221, 230)]

/-- The numbers of the 65 types with proper operations only (the Sohncke types): classes 1, 2, 222, 4, 422, 3, 32, 6, 622,
23, 432. -/
def properNumbers : List (Nat × Nat) :=
  [(1, 1), (3, 5), (16, 24), (75, 80), (89, 98), (143, 146), (149, 155), (168, 173), (177, 182), (195, 199), (207, 214)]

/-- The numbers of the 68 polar types: classes 1, 2, m, mm2, 4, 4mm, 3, 3m, 6, 6mm. -/
def polarNumbers : List (Nat × Nat) :=
  [(1, 1), (3, 5), (6, 9), (25, 46), (75, 80), (99, 110), (143, 146), (156, 161), (168, 173), (183, 186)]

end Verif
