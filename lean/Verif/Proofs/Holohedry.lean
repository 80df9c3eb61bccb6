import Mathlib.Tactic.IntervalCases
import Verif.Proofs.Basic
import Verif.Spec.Rotation

/-! # The cubic and hexagonal holohedries as explicit lists -/

namespace Verif

/-- A matrix from its columns. -/
def M3.ofCols (a b c : V3) : M3 := ⟨a.x, b.x, c.x, a.y, b.y, c.y, a.z, b.z, c.z⟩

/-- The six integer vectors of length one. -/
def unitVecs : List V3 := [⟨1, 0, 0⟩, ⟨-1, 0, 0⟩, ⟨0, 1, 0⟩, ⟨0, -1, 0⟩, ⟨0, 0, 1⟩, ⟨0, 0, -1⟩]

/-- The six short vectors of the hexagonal basal plane. -/
def hexVecs : List V3 := [⟨1, 0, 0⟩, ⟨-1, 0, 0⟩, ⟨0, 1, 0⟩, ⟨0, -1, 0⟩, ⟨1, 1, 0⟩, ⟨-1, -1, 0⟩]

instance (a : M3) : Decidable a.Cubic := inferInstanceAs (Decidable (_ = _))
instance (a : M3) : Decidable a.Hexagonal := inferInstanceAs (Decidable (_ = _))

/-- All cubic matrices. -/
def cubicList : List M3 :=
  (unitVecs.flatMap fun a => unitVecs.flatMap fun b => unitVecs.map fun c => M3.ofCols a b c).filter
    (fun m => decide m.Cubic)

/-- All hexagonal matrices. -/
def hexList : List M3 :=
  (hexVecs.flatMap fun a => hexVecs.flatMap fun b => [⟨0, 0, 1⟩, ⟨0, 0, -1⟩].map fun c => M3.ofCols a b c).filter
    (fun m => decide m.Hexagonal)

theorem sq_le_one {x : Int} (h : x * x ≤ 1) : x = -1 ∨ x = 0 ∨ x = 1 := by
  have h1 : x ≤ 1 := by nlinarith
  have h2 : -1 ≤ x := by nlinarith
  omega

theorem unitVec_mem {x y z : Int} (h : x * x + y * y + z * z = 1) : (⟨x, y, z⟩ : V3) ∈ unitVecs := by
  have hx := mul_self_nonneg x
  have hy := mul_self_nonneg y
  have hz := mul_self_nonneg z
  rcases sq_le_one (x := x) (by omega) with rfl | rfl | rfl <;>
    rcases sq_le_one (x := y) (by omega) with rfl | rfl | rfl <;>
    rcases sq_le_one (x := z) (by omega) with rfl | rfl | rfl <;> revert h <;> decide

theorem hexVec_mem {x y z : Int} (h : 2 * (x * x) - 2 * (x * y) + 2 * (y * y) + z * z = 2) :
    (⟨x, y, z⟩ : V3) ∈ hexVecs := by
  have hxy := mul_self_nonneg (x - y)
  have hx := mul_self_nonneg x
  have hy := mul_self_nonneg y
  have hz := mul_self_nonneg z
  have e : x * x + y * y + (x - y) * (x - y) + z * z = 2 := by linarith
  have hz' : z * z ≤ 1 := by
    by_contra hc
    have h2 : z * z = 2 := by omega
    have : z ≤ 1 := by nlinarith
    have : -1 ≤ z := by nlinarith
    have : z = -1 ∨ z = 0 ∨ z = 1 := by omega
    rcases this with rfl | rfl | rfl <;> simp at h2
  have hx' : x * x ≤ 1 := by
    by_contra hc
    have h2 : x * x = 2 := by omega
    have : x ≤ 1 := by nlinarith
    have : -1 ≤ x := by nlinarith
    have : x = -1 ∨ x = 0 ∨ x = 1 := by omega
    rcases this with rfl | rfl | rfl <;> simp at h2
  have hy' : y * y ≤ 1 := by
    by_contra hc
    have h2 : y * y = 2 := by omega
    have : y ≤ 1 := by nlinarith
    have : -1 ≤ y := by nlinarith
    have : y = -1 ∨ y = 0 ∨ y = 1 := by omega
    rcases this with rfl | rfl | rfl <;> simp at h2
  rcases sq_le_one hx' with rfl | rfl | rfl <;> rcases sq_le_one hy' with rfl | rfl | rfl <;>
    rcases sq_le_one hz' with rfl | rfl | rfl <;> revert h <;> decide

theorem hexAxis_mem {x y z : Int} (h : 2 * (x * x) - 2 * (x * y) + 2 * (y * y) + z * z = 1) :
    (⟨x, y, z⟩ : V3) ∈ ([⟨0, 0, 1⟩, ⟨0, 0, -1⟩] : List V3) := by
  have hxy := mul_self_nonneg (x - y)
  have hx := mul_self_nonneg x
  have hy := mul_self_nonneg y
  have hz := mul_self_nonneg z
  have e : x * x + y * y + (x - y) * (x - y) + z * z = 1 := by linarith
  rcases sq_le_one (x := x) (by omega) with rfl | rfl | rfl <;>
    rcases sq_le_one (x := y) (by omega) with rfl | rfl | rfl <;>
    rcases sq_le_one (x := z) (by omega) with rfl | rfl | rfl <;> revert h <;> decide

theorem cubic_iff_mem (a : M3) : a.Cubic ↔ a ∈ cubicList := by
  constructor
  · intro h
    have h' := h
    simp only [M3.Cubic, M3.transpose, M3.mul, M3.one, M3.mk.injEq] at h'
    simp only [cubicList, List.mem_filter, List.mem_flatMap, List.mem_map, decide_eq_true_eq]
    exact ⟨⟨_, unitVec_mem h'.1, _, unitVec_mem h'.2.2.2.2.1, _, unitVec_mem h'.2.2.2.2.2.2.2.2, rfl⟩, h⟩
  · intro h
    simp only [cubicList, List.mem_filter, decide_eq_true_eq] at h
    exact h.2

theorem hexagonal_iff_mem (a : M3) : a.Hexagonal ↔ a ∈ hexList := by
  constructor
  · intro h
    have h' := h
    simp only [M3.Hexagonal, M3.transpose, M3.mul, hexMetric, M3.mk.injEq] at h'
    simp only [hexList, List.mem_filter, List.mem_flatMap, List.mem_map, decide_eq_true_eq]
    have c1 := h'.1
    have c2 := h'.2.2.2.2.1
    have c3 := h'.2.2.2.2.2.2.2.2
    exact ⟨⟨_, hexVec_mem (x := a.m11) (y := a.m21) (z := a.m31) (by linarith),
      _, hexVec_mem (x := a.m12) (y := a.m22) (z := a.m32) (by linarith),
      _, hexAxis_mem (x := a.m13) (y := a.m23) (z := a.m33) (by linarith), rfl⟩, h⟩
  · intro h
    simp only [hexList, List.mem_filter, decide_eq_true_eq] at h
    exact h.2

theorem M3.transpose_mul (a b : M3) : (a.mul b).transpose = b.transpose.mul a.transpose := by
  ext <;> simp only [M3.transpose, M3.mul] <;> ring

theorem M3.Cubic.mul {a b : M3} (ha : a.Cubic) (hb : b.Cubic) : (a.mul b).Cubic := by
  unfold M3.Cubic at *
  rw [M3.transpose_mul, M3.mul_assoc, ← M3.mul_assoc a.transpose, ha, M3.one_mul, hb]

theorem M3.Hexagonal.mul {a b : M3} (ha : a.Hexagonal) (hb : b.Hexagonal) : (a.mul b).Hexagonal := by
  unfold M3.Hexagonal at *
  have : (((a.mul b).transpose).mul hexMetric).mul (a.mul b)
      = (b.transpose.mul ((a.transpose.mul hexMetric).mul a)).mul b := by
    rw [M3.transpose_mul]; simp only [M3.mul_assoc]
  rw [this, ha, hb]

theorem cubicList_length : cubicList.length = 48 := by decide +kernel
theorem hexList_length : hexList.length = 24 := by decide +kernel

end Verif
