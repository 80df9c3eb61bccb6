import Verif.Model.FloatType
import Verif.Props.Inverse
import Verif.Props.Proper

/-!
# How large the entries may be (C09, C10, C11, C85)

`rotation_type`, `equiv_num`, `proper_rotation` and `eigenvector` compute the determinant in `f64` and cast it to `i32`.
-/

namespace Verif

/-- Rust's saturating cast, on integers. -/
def clampI32 (n : Int) : Int := max (-2147483648) (min 2147483647 n)

theorem toI32_clamp (n : Int) : toI32 (n : Rat) = clampI32 n := by
  have e : Int.tdiv (n : Rat).num ((n : Rat).den : Int) = n := by simp
  unfold toI32 clampI32
  simp only [e]
  split
  · omega
  · split <;> omega

/-- The `f64` determinant, for entries up to 100000: exact, then saturated to the range of `i32`. -/
theorem det_saturates (m : M4) (h : m.rot.Bounded 100000) : m.detF64 = clampI32 m.det := by
  obtain ⟨⟨a, b, c, d, e, f, g, h', i⟩, t, bt, w⟩ := m
  simp only [M3.Bounded, M3.toList, List.mem_cons, List.not_mem_nil, or_false, forall_eq_or_imp, forall_eq] at h
  obtain ⟨ha, hb, hc, hd, he, hf, hg, hh, hi⟩ := h
  have q1 := abs_mul_le he hi
  have q2 := abs_mul_le hh hf
  have q3 := abs_mul_le hd hi
  have q4 := abs_mul_le hg hf
  have q5 := abs_mul_le hd hh
  have q6 := abs_mul_le hg he
  have r1 := abs_sub_le' q1 q2
  have r2 := abs_sub_le' q3 q4
  have r3 := abs_sub_le' q5 q6
  have s1 := abs_mul_le ha r1
  have s2 := abs_mul_le hb r2
  have s3 := abs_mul_le hc r3
  have u1 := abs_sub_le' s1 s2
  have u2 := abs_add_le' u1 s3
  simp only [M4.detF64, M4.det, M3.det]
  rw [fmul_int (le_trans q1 (by norm_num)), fmul_int (le_trans q2 (by norm_num)), fmul_int (le_trans q3 (by norm_num)),
    fmul_int (le_trans q4 (by norm_num)), fmul_int (le_trans q5 (by norm_num)), fmul_int (le_trans q6 (by norm_num)),
    fsub_int (le_trans r1 (by norm_num)), fsub_int (le_trans r2 (by norm_num)), fsub_int (le_trans r3 (by norm_num)),
    fmul_int (le_trans s1 (by norm_num)), fmul_int (le_trans s2 (by norm_num)), fmul_int (le_trans s3 (by norm_num)),
    fsub_int (le_trans u1 (by norm_num)), fadd_int (le_trans u2 (by norm_num)), toI32_clamp]

theorem clamp_unit (n : Int) : (clampI32 n = 1 ↔ n = 1) ∧ (clampI32 n = -1 ↔ n = -1) := by
  unfold clampI32; omega

theorem rotationTypeF64_eq (m : M4) (h : m.rot.Bounded 100000) : m.rotationTypeF64 = m.rotationType := by
  unfold M4.rotationTypeF64 M4.rotationType
  rw [det_saturates m h]
  have hu := clamp_unit m.det
  by_cases h1 : m.det = 1
  · rw [hu.1.2 h1, h1]; rfl
  · by_cases h2 : m.det = -1
    · rw [hu.2.2 h2, h2]; rfl
    · have c1 : clampI32 m.det ≠ 1 := fun e => h1 (hu.1.1 e)
      have c2 : clampI32 m.det ≠ -1 := fun e => h2 (hu.2.1 e)
      generalize clampI32 m.det = x at c1 c2
      generalize m.det = y at h1 h2
      generalize m.trace = z
      have e1 : ∀ x : Int, x ≠ 1 → x ≠ -1 → (match x, z with
        | -1, -3 => some RotationType.I
        | -1, -2 => some .M6
        | -1, -1 => some .M4
        | -1, 0 => some .M3
        | -1, 1 => some .M
        | 1, -1 => some .N2
        | 1, 0 => some .N3
        | 1, 1 => some .N4
        | 1, 2 => some .N6
        | 1, 3 => some .E
        | _, _ => none) = none := by
        intro x hx hx'
        split <;> first | rfl | (exact absurd rfl hx) | (exact absurd rfl hx')
      exact (e1 x c1 c2).trans (e1 y h1 h2).symm

theorem equivNumF64_eq (m : M4) (h : m.rot.Bounded 100000) : m.equivNumF64 = m.equivNum := by
  unfold M4.equivNumF64 M4.equivNum
  rw [rotationTypeF64_eq m h]; rfl

/-- The determinant of a classified matrix is a unit. -/
theorem rotationType_unit {m : M4} {t : RotationType} (h : m.rotationType = some t) : m.det = 1 ∨ m.det = -1 := by
  unfold M4.rotationType at h
  split at h <;> first | (left; assumption) | (right; assumption) | cases h

theorem properRotationF64_eq (m : M4) (h : m.rot.Bounded 100000) : m.properRotationF64 = m.properRotation := by
  unfold M4.properRotationF64 M4.properRotation
  rw [rotationTypeF64_eq m h]
  cases ht : m.rotationType with
  | none => rfl
  | some t =>
    have : m.detF64 = m.det := by
      rw [det_saturates m h]
      have hu := clamp_unit m.det
      rcases rotationType_unit ht with e | e
      · rw [hu.1.2 e, e]
      · rw [hu.2.2 e, e]
    rw [this]; rfl

theorem eigenvectorF64_eq (m : M4) (h : m.detF64 = m.det) : m.eigenvectorF64 = m.eigenvector := by
  unfold M4.eigenvectorF64 M4.eigenvector
  rw [h]; rfl

/-- C09 (part), as computed: for a rotation part of finite order with entries up to 100000 in absolute value,
`rotation_type` succeeds, is improper exactly when the determinant is -1, and `equiv_num` is the exact order of the
rotation part (of minus the rotation part when improper). Missing: larger entries (`rotation_type_large_wrong`). -/
theorem rotation_type_correct_partial (m : M4) (h : m.Affine) (hf : m.rotationPart.FiniteOrder)
    (hb : m.rot.Bounded 100000) :
    ∃ t n, m.rotationTypeF64 = some t ∧ m.equivNumF64 = .ok n ∧
      ((t.improper = false ∧ m.rotationPart.det = 1 ∧ m.rotationPart.HasOrder n) ∨
       (t.improper = true ∧ m.rotationPart.det = -1 ∧ m.rotationPart.neg.HasOrder n)) := by
  rw [rotationTypeF64_eq m hb, equivNumF64_eq m hb]
  exact rotation_type_correct m h hf

/-- A skew matrix of order 6 with five-digit entries meets the hypotheses. -/
example : M3.FiniteOrder ⟨201, 40201, 0, -1, -200, 0, 0, 0, 1⟩ ∧ M3.Bounded ⟨201, 40201, 0, -1, -200, 0, 0, 0, 1⟩ 100000 :=
  ⟨⟨6, by decide, by decide +kernel⟩, by simp [M3.Bounded, M3.toList]⟩

/-- C10 (part), as computed: with entries up to 100000, `rotation_type` fails exactly when (determinant, trace) is not
one of the ten crystallographic pairs, and depends only on the rotation part. Missing: larger entries. -/
theorem rotation_type_error_iff_partial (m : M4) (h : m.Affine) (hb : m.rot.Bounded 100000) :
    (m.rotationTypeF64 = none ↔ (m.rot.det, m.rot.trace) ∉ crystallographicPairs) ∧
    ∀ m' : M4, m'.Affine → m'.rotationPart = m.rotationPart →
      m'.rotationTypeF64 = m.rotationTypeF64 ∧ m'.equivNumF64 = m.equivNumF64 := by
  refine ⟨by rw [rotationTypeF64_eq m hb]; exact rotation_type_error_iff m h, fun m' h' e => ?_⟩
  have hb' : m'.rot.Bounded 100000 := by
    simp only [M4.rotationPart] at e; rw [e]; exact hb
  rw [rotationTypeF64_eq m hb, rotationTypeF64_eq m' hb', equivNumF64_eq m hb, equivNumF64_eq m' hb']
  exact rotation_type_ignores_translation m' m h' h e

example : M4.rotationTypeF64 ⟨⟨100000, 0, 0, 0, 100000, 0, 0, 0, 1⟩, ⟨0, 0, 0⟩, ⟨0, 0, 0⟩, 1⟩ = none :=
  (rotation_type_error_iff_partial _ ⟨rfl, rfl⟩ (by simp [M3.Bounded, M3.toList])).1.2 (by decide)

/-- C09 and C10 are false for large entries: this operation has order 4, determinant 1 and trace 1, all its entries are
`i32` values, but the `f64` determinant is 0, so `rotation_type` fails and `equiv_num` panics. -/
theorem rotation_type_large_wrong :
    ∃ m : M4, m.Affine ∧ m.rot.Bounded 2147483647 ∧ m.rotationPart.HasOrder 4 ∧ m.rotationPart.det = 1 ∧
      m.rotationPart.trace = 1 ∧ m.rotationTypeF64 = none ∧ m.equivNumF64 = .error .notRotation := by
  refine ⟨⟨⟨100000000, 101596577, 0, -98428513, -100000000, 0, 0, 0, 1⟩, V3.zero, V3.zero, 1⟩, ⟨rfl, rfl⟩, ?_, ?_, ?_, ?_, ?_, ?_⟩
  · simp [M3.Bounded, M3.toList]
  · refine ⟨by decide, by decide +kernel, ?_⟩
    intro k h1 h2
    have : k = 1 ∨ k = 2 ∨ k = 3 := by omega
    rcases this with rfl | rfl | rfl <;> decide +kernel
  · decide
  · decide
  · decide +kernel
  · decide +kernel

/-- C11, as computed, for entries up to 700 (where neither the cast nor the `i32` arithmetic saturates or overflows):
what `eigenvector` returns is an axis, and it panics exactly when no axis has components in -1..1. -/
theorem eigenvector_as_computed (m : M4) (hb : m.rot.Bounded 700) :
    (∀ v, m.eigenvectorF64 = .ok v → m.rotationPart.IsAxis v) ∧
    (m.eigenvectorF64 = .error .noEigenvector ↔
      ¬ ∃ v, m.rotationPart.IsAxis v ∧ -1 ≤ v.x ∧ v.x ≤ 1 ∧ -1 ≤ v.y ∧ v.y ≤ 1 ∧ -1 ≤ v.z ∧ v.z ≤ 1) := by
  rw [eigenvectorF64_eq m (det_exact m hb)]
  exact eigenvector_spec m

example : M4.eigenvectorF64 ⟨⟨0, 0, 1, 1, 0, 0, 0, 1, 0⟩, ⟨0, 0, 0⟩, ⟨0, 0, 0⟩, 1⟩ = .ok ⟨1, 1, 1⟩ ∧
    M3.Bounded ⟨0, 0, 1, 1, 0, 0, 0, 1, 0⟩ 700 := ⟨by decide +kernel, by simp [M3.Bounded, M3.toList]⟩

/-- C85, as computed, for entries up to 100000. -/
theorem proper_rotation_as_computed (m : M4) (h : m.Affine) (hf : m.rotationPart.FiniteOrder)
    (hb : m.rot.Bounded 100000) :
    (m.properRotationF64 = none ↔ m.rotationPart = M3.one ∨ m.rotationPart = M3.one.neg) ∧
    ∀ p, m.properRotationF64 = some p →
      p.det = 1 ∧ (p = m.rotationPart ∧ m.rotationPart.det = 1 ∨ p = m.rotationPart.neg ∧ m.rotationPart.det = -1) ∧
      (∃ n, m.equivNumF64 = .ok n ∧ p.HasOrder n ∧ 1 < n) ∧
      ∀ v : V3, p.Fixes v ↔ m.rotationPart.mulVec v = ⟨m.rotationPart.det * v.x, m.rotationPart.det * v.y, m.rotationPart.det * v.z⟩ := by
  rw [properRotationF64_eq m hb, equivNumF64_eq m hb]
  exact proper_rotation_meaning m h hf

example : M4.properRotationF64 ⟨⟨1, 5, 0, 0, -1, 0, 0, 0, 1⟩, ⟨1, 2, 3⟩, ⟨0, 0, 0⟩, 1⟩ =
    some ⟨-1, -5, 0, 0, 1, 0, 0, 0, -1⟩ := by decide +kernel

/-- The rotations every tabulated symbol produces (cubic and hexagonal cells) have entries in -1..1, so all of C09, C10,
C11 and C85 hold of them as computed. -/
theorem cell_rotations_exact (m : M4) (h : m.rotationPart.Cubic ∨ m.rotationPart.Hexagonal) :
    m.rotationTypeF64 = m.rotationType ∧ m.equivNumF64 = m.equivNum ∧ m.properRotationF64 = m.properRotation ∧
      m.eigenvectorF64 = m.eigenvector := by
  have hb : m.rot.Bounded 700 := by
    have k1 : ∀ a ∈ cubicExplicit, ∀ x ∈ a.toList, |x| ≤ 700 := by decide +kernel
    have k2 : ∀ a ∈ hexExplicit, ∀ x ∈ a.toList, |x| ≤ 700 := by decide +kernel
    rcases h with h | h
    · exact k1 _ (cubic_mem_explicit h)
    · exact k2 _ (hex_mem_explicit h)
  have hb' : m.rot.Bounded 100000 := fun x hx => le_trans (hb x hx) (by norm_num)
  exact ⟨rotationTypeF64_eq m hb', equivNumF64_eq m hb', properRotationF64_eq m hb', eigenvectorF64_eq m (det_exact m hb)⟩

example : M3.Hexagonal ⟨1, -1, 0, 1, 0, 0, 0, 0, 1⟩ := by decide

end Verif
