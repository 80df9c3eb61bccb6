import Mathlib.Tactic.Ring
import Mathlib.Tactic.Linarith
import Mathlib.Tactic.FieldSimp
import Mathlib.Tactic.NormNum
import Mathlib.Tactic.Push
import Mathlib.Tactic.LinearCombination
import Verif.Model.Seitz
import Verif.Spec.Affine

/-! # Basic lemmas: truncated remainders, vectors, matrices, action on points -/

namespace Verif

theorem tmod12_nonneg {a : Int} (h : 0 ≤ a) : Int.tmod a 12 = a % 12 := Int.tmod_eq_emod_of_nonneg h

theorem tmod12_neg {a : Int} (h : a < 0) : Int.tmod a 12 = -((-a) % 12) := by
  have h1 : Int.tmod (-(-a)) 12 = - Int.tmod (-a) 12 := Int.neg_tmod ..
  rw [neg_neg] at h1
  rw [h1, Int.tmod_eq_emod_of_nonneg (by omega)]

/-- All that is needed of `tmod · 12` by `omega`. -/
theorem tmod12_cases (a : Int) :
    (0 ≤ a ∧ Int.tmod a 12 = a % 12) ∨ (a < 0 ∧ Int.tmod a 12 = -((-a) % 12)) := by
  rcases lt_or_ge a 0 with h | h
  · exact .inr ⟨h, tmod12_neg h⟩
  · exact .inl ⟨h, tmod12_nonneg h⟩

theorem tmod12_dvd (a : Int) : (12 : Int) ∣ a - Int.tmod a 12 := by
  rcases tmod12_cases a with h | h <;> omega

theorem tmod12_eq_zero (a : Int) : Int.tmod a 12 = 0 ↔ (12 : Int) ∣ a := by
  rcases tmod12_cases a with h | h <;> omega

theorem tmod12_bounds (a : Int) : -12 < Int.tmod a 12 ∧ Int.tmod a 12 < 12 := by
  rcases tmod12_cases a with h | h <;> omega

attribute [ext] V3 M3 M4

namespace V3

@[simp] theorem add_x (a b : V3) : (a.add b).x = a.x + b.x := rfl
@[simp] theorem add_y (a b : V3) : (a.add b).y = a.y + b.y := rfl
@[simp] theorem add_z (a b : V3) : (a.add b).z = a.z + b.z := rfl
@[simp] theorem sub_x (a b : V3) : (a.sub b).x = a.x - b.x := rfl
@[simp] theorem sub_y (a b : V3) : (a.sub b).y = a.y - b.y := rfl
@[simp] theorem sub_z (a b : V3) : (a.sub b).z = a.z - b.z := rfl
@[simp] theorem neg_x (a : V3) : a.neg.x = -a.x := rfl
@[simp] theorem neg_y (a : V3) : a.neg.y = -a.y := rfl
@[simp] theorem neg_z (a : V3) : a.neg.z = -a.z := rfl
@[simp] theorem map_x (f) (a : V3) : (a.map f).x = f a.x := rfl
@[simp] theorem map_y (f) (a : V3) : (a.map f).y = f a.y := rfl
@[simp] theorem map_z (f) (a : V3) : (a.map f).z = f a.z := rfl
@[simp] theorem smul_x (k) (a : V3) : (smul k a).x = k * a.x := rfl
@[simp] theorem smul_y (k) (a : V3) : (smul k a).y = k * a.y := rfl
@[simp] theorem smul_z (k) (a : V3) : (smul k a).z = k * a.z := rfl
@[simp] theorem zero_x : zero.x = 0 := rfl
@[simp] theorem zero_y : zero.y = 0 := rfl
@[simp] theorem zero_z : zero.z = 0 := rfl

/-- Congruence modulo 12, componentwise. -/
def Cong (a b : V3) : Prop := (12 : Int) ∣ a.x - b.x ∧ (12 : Int) ∣ a.y - b.y ∧ (12 : Int) ∣ a.z - b.z

theorem Cong.refl (a : V3) : Cong a a := by simp [Cong]

theorem Cong.symm {a b : V3} (h : Cong a b) : Cong b a := by
  obtain ⟨h1, h2, h3⟩ := h; exact ⟨by omega, by omega, by omega⟩

theorem Cong.trans {a b c : V3} (h : Cong a b) (h' : Cong b c) : Cong a c := by
  obtain ⟨h1, h2, h3⟩ := h; obtain ⟨h1', h2', h3'⟩ := h'; exact ⟨by omega, by omega, by omega⟩

theorem Cong.add {a b c d : V3} (h : Cong a b) (h' : Cong c d) : Cong (a.add c) (b.add d) := by
  obtain ⟨h1, h2, h3⟩ := h; obtain ⟨h1', h2', h3'⟩ := h'
  refine ⟨?_, ?_, ?_⟩ <;> simp <;> omega

theorem Cong.neg {a b : V3} (h : Cong a b) : Cong a.neg b.neg := by
  obtain ⟨h1, h2, h3⟩ := h
  refine ⟨?_, ?_, ?_⟩ <;> simp <;> omega

theorem cong_map_tmod (a : V3) : Cong (a.map (fun v => Int.tmod v base)) a := by
  refine ⟨?_, ?_, ?_⟩
  · have := tmod12_dvd a.x; simp only [map_x, base]; omega
  · have := tmod12_dvd a.y; simp only [map_y, base]; omega
  · have := tmod12_dvd a.z; simp only [map_z, base]; omega

theorem add_comm (a b : V3) : a.add b = b.add a := by ext <;> simp <;> ring
theorem add_assoc (a b c : V3) : (a.add b).add c = a.add (b.add c) := by ext <;> simp <;> ring
theorem add_zero (a : V3) : a.add zero = a := by ext <;> simp
theorem zero_add (a : V3) : zero.add a = a := by ext <;> simp
theorem neg_add_self (a : V3) : a.neg.add a = zero := by ext <;> simp
theorem add_neg_self (a : V3) : a.add a.neg = zero := by ext <;> simp

end V3

namespace M3

theorem mul_assoc (a b c : M3) : (a.mul b).mul c = a.mul (b.mul c) := by
  ext <;> simp only [mul] <;> ring

theorem one_mul (a : M3) : one.mul a = a := by ext <;> simp [mul, one]
theorem mul_one (a : M3) : a.mul one = a := by ext <;> simp [mul, one]

theorem mulVec_add (a : M3) (u v : V3) : a.mulVec (u.add v) = (a.mulVec u).add (a.mulVec v) := by
  ext <;> simp only [mulVec, V3.add] <;> ring

theorem mulVec_neg (a : M3) (u : V3) : a.mulVec u.neg = (a.mulVec u).neg := by
  ext <;> simp only [mulVec, V3.neg] <;> ring

theorem mulVec_mulVec (a b : M3) (v : V3) : a.mulVec (b.mulVec v) = (a.mul b).mulVec v := by
  ext <;> simp only [mulVec, mul] <;> ring

theorem one_mulVec (v : V3) : one.mulVec v = v := by ext <;> simp [mulVec, one]

theorem mulVec_zero (a : M3) : a.mulVec V3.zero = V3.zero := by ext <;> simp [mulVec, V3.zero]

theorem mulVec_cong (a : M3) {u v : V3} (h : V3.Cong u v) : V3.Cong (a.mulVec u) (a.mulVec v) := by
  obtain ⟨⟨i, h1⟩, ⟨j, h2⟩, ⟨k, h3⟩⟩ := h
  refine ⟨⟨a.m11 * i + a.m12 * j + a.m13 * k, ?_⟩, ⟨a.m21 * i + a.m22 * j + a.m23 * k, ?_⟩,
    ⟨a.m31 * i + a.m32 * j + a.m33 * k, ?_⟩⟩ <;> simp only [mulVec]
  · linear_combination a.m11 * h1 + a.m12 * h2 + a.m13 * h3
  · linear_combination a.m21 * h1 + a.m22 * h2 + a.m23 * h3
  · linear_combination a.m31 * h1 + a.m32 * h2 + a.m33 * h3

theorem det_mul (a b : M3) : (a.mul b).det = a.det * b.det := by simp only [det, mul]; ring

end M3

theorem M4.Affine.mul {a b : M4} (ha : a.Affine) (hb : b.Affine) : (a.mul b).Affine := by
  obtain ⟨h1, h2⟩ := ha; obtain ⟨h3, h4⟩ := hb
  constructor
  · simp [M4.mul, M4.mulRaw, h1, h2, h3, M3.vecMul, V3.add, V3.smul]
  · simp [M4.mul, M4.mulRaw, h1, h2, h4, V3.dot]

theorem M4.mul_rot {a b : M4} (hb : b.Affine) : (a.mul b).rot = a.rot.mul b.rot := by
  obtain ⟨h3, h4⟩ := hb
  ext <;> simp [M4.mul, M4.mulRaw, M3.add, M3.outer, h3]

theorem M4.mul_tr {a b : M4} (hb : b.Affine) :
    (a.mul b).tr = ((a.rot.mulVec b.tr).add a.tr).map (fun v => Int.tmod v base) := by
  obtain ⟨h3, h4⟩ := hb
  ext <;> simp [M4.mul, M4.mulRaw, h4]

theorem M4.mul_tr_cong {a b : M4} (hb : b.Affine) :
    V3.Cong (a.mul b).tr ((a.rot.mulVec b.tr).add a.tr) := by
  rw [M4.mul_tr hb]; exact V3.cong_map_tmod _

/-- The exact (unreduced) composition. -/
theorem M4.act_act (a b : M4) (p : Pt) :
    a.act (b.act p) = M4.act ⟨a.rot.mul b.rot, (a.rot.mulVec b.tr).add a.tr, V3.zero, 1⟩ p := by
  ext <;> simp only [M4.act, M3.mul, M3.mulVec, V3.add] <;> push_cast <;> ring

theorem M4.act_congr_rot_tr {a b : M4} (h : a.rot = b.rot) (h' : a.tr = b.tr) (p : Pt) : a.act p = b.act p := by
  simp only [M4.act, h, h']

/-- Translations congruent modulo 12 act the same modulo cells. -/
theorem M4.sameModCell_of_cong {a b : M4} (h : a.rot = b.rot) (ht : V3.Cong a.tr b.tr) :
    SameModCell a.act b.act := by
  obtain ⟨⟨i, h1⟩, ⟨j, h2⟩, ⟨k, h3⟩⟩ := ht
  refine ⟨⟨i, j, k⟩, fun p => ?_⟩
  have e1 : (a.tr.x : ℚ) = b.tr.x + 12 * i := by exact_mod_cast (by omega : a.tr.x = b.tr.x + 12 * i)
  have e2 : (a.tr.y : ℚ) = b.tr.y + 12 * j := by exact_mod_cast (by omega : a.tr.y = b.tr.y + 12 * j)
  have e3 : (a.tr.z : ℚ) = b.tr.z + 12 * k := by exact_mod_cast (by omega : a.tr.z = b.tr.z + 12 * k)
  ext <;> simp only [M4.act, Pt.addCell, h, e1, e2, e3] <;> ring

theorem M4.cong_of_sameModCell {a b : M4} (h : SameModCell a.act b.act) :
    a.rot = b.rot ∧ V3.Cong a.tr b.tr := by
  obtain ⟨k, hk⟩ := h
  have h0 := hk ⟨0, 0, 0⟩
  have hx := hk ⟨1, 0, 0⟩
  have hy := hk ⟨0, 1, 0⟩
  have hz := hk ⟨0, 0, 1⟩
  simp only [M4.act, Pt.addCell, Pt.mk.injEq, mul_zero, add_zero, zero_add, mul_one] at h0 hx hy hz
  obtain ⟨a1, a2, a3⟩ := h0
  obtain ⟨b1, b2, b3⟩ := hx
  obtain ⟨c1, c2, c3⟩ := hy
  obtain ⟨d1, d2, d3⟩ := hz
  constructor
  · ext <;> apply Int.cast_injective (α := ℚ) <;> linarith
  · have e1 : (a.tr.x : ℚ) - b.tr.x = 12 * k.x := by linarith
    have e2 : (a.tr.y : ℚ) - b.tr.y = 12 * k.y := by linarith
    have e3 : (a.tr.z : ℚ) - b.tr.z = 12 * k.z := by linarith
    exact ⟨⟨k.x, by exact_mod_cast e1⟩, ⟨k.y, by exact_mod_cast e2⟩, ⟨k.z, by exact_mod_cast e3⟩⟩

theorem M4.eqv_iff {a b : M4} : M4.eqv a b = true ↔ a.rot = b.rot ∧ V3.Cong a.tr b.tr := by
  unfold M4.eqv
  simp only [M4.rotationPart, M4.translationPart, V3.toList, base]
  by_cases h : a.rot = b.rot
  · rw [if_pos h]
    simp only [List.all_cons, List.all_nil, Bool.and_true, Bool.and_eq_true, beq_iff_eq, tmod12_eq_zero, h,
      true_and, V3.Cong, V3.sub]
  · rw [if_neg h]
    simp [h]

end Verif
