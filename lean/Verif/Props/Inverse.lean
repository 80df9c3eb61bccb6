import Mathlib.Algebra.Group.End
import Verif.Proofs.Inverse
import Verif.Props.Contracts

/-!
# Inverses and negative powers (C05, C06), and the `f64` computations

The code inverts in double precision and truncates.
-/

namespace Verif

/-! ## The inverse -/

theorem M3.Cubic.unimod {r : M3} (h : r.Cubic) : r.Unimod :=
  (show ∀ a ∈ cubicExplicit, a.det = 1 ∨ a.det = -1 by decide +kernel) r (cubic_mem_explicit h)

theorem M3.Hexagonal.unimod {r : M3} (h : r.Hexagonal) : r.Unimod :=
  (show ∀ a ∈ hexExplicit, a.det = 1 ∨ a.det = -1 by decide +kernel) r (hex_mem_explicit h)

theorem M4.Affine.eta {m : M4} (h : m.Affine) : m = ⟨m.rot, m.tr, V3.zero, 1⟩ := by
  obtain ⟨R, t, b, w⟩ := m
  obtain ⟨rfl, rfl⟩ := h
  rfl

/-- `==` with the identity, for an operation that moves no point. -/
theorem eqv_identity_of_act {a b : M4} (hb : b.Affine) (h : ∀ p, a.act (b.act p) = p) :
    M4.eqv (a.mul b) M4.identity = true := by
  rw [eq_iff_same_operation]
  obtain ⟨k, hk⟩ := mul_is_composition a b hb
  refine ⟨k, fun p => ?_⟩
  rw [hk p, identity_inversion_meaning.1 p]
  simp [h p]

/-- C05 (part). For an operation whose rotation is a symmetry of the cubic cell and whose translation is reduced (each
component strictly between -12 and 12, as `*` and `+` leave it), `try_inverse` returns the exact inverse: it undoes the
operation point by point, on both sides, and both products are `== identity`. -/
theorem try_inverse_partial (m : M4) (ha : m.Affine) (hR : m.rot.Cubic) (ht : m.tr.Small) :
    ∃ n, m.tryInverse = some n ∧ n.Affine ∧ (∀ p, n.act (m.act p) = p) ∧ (∀ p, m.act (n.act p) = p) ∧
      M4.eqv (m.mul n) M4.identity = true ∧ M4.eqv (n.mul m) M4.identity = true := by
  have hn : (M4.uinv m).Affine := ⟨rfl, rfl⟩
  have e1 : ∀ p, (M4.uinv m).act (m.act p) = p := fun p => congrFun (M4.uinv_act hR.unimod) p
  have e2 : ∀ p, m.act ((M4.uinv m).act p) = p := fun p => congrFun (M4.act_uinv hR.unimod) p
  refine ⟨m.uinv, ?_, hn, e1, e2, eqv_identity_of_act hn e2, eqv_identity_of_act ha e1⟩
  rw [ha.eta]
  exact tryInverse_cubic m.rot hR m.tr ht

/-- A fourfold screw operation with a glide, inside the hypotheses. -/
example : (⟨⟨0, -1, 0, 1, 0, 0, 0, 0, 1⟩, ⟨6, -11, 3⟩, ⟨0, 0, 0⟩, 1⟩ : M4).Affine ∧
    (⟨0, -1, 0, 1, 0, 0, 0, 0, 1⟩ : M3).Cubic ∧ (⟨6, -11, 3⟩ : V3).Small ∧
    M4.tryInverse ⟨⟨0, -1, 0, 1, 0, 0, 0, 0, 1⟩, ⟨6, -11, 3⟩, ⟨0, 0, 0⟩, 1⟩
      = some ⟨⟨0, 1, 0, -1, 0, 0, 0, 0, 1⟩, ⟨11, 6, -3⟩, ⟨0, 0, 0⟩, 1⟩ :=
  ⟨⟨rfl, rfl⟩, by decide, by simp [V3.Small], by decide +kernel⟩

theorem lossy_sum_ne_zero {a b : Int} (h : Lossy a b) : a + b ≠ 0 := by
  have key : ∀ p ∈ lossyPairs, p.1 + p.2 ≠ 0 := by decide
  rcases h with h | h | h | h
  · exact key _ h
  · have := key _ h; simp only at this; omega
  · have := key _ h; simp only at this; omega
  · have := key _ h; simp only at this; omega

theorem lossy_neg {a b : Int} : Lossy (-a) (-b) ↔ Lossy a b := by
  unfold Lossy
  simp only [neg_neg]
  tauto

theorem small_mul {c t : Int} (hc : c = -1 ∨ c = 0 ∨ c = 1) (h : -11 ≤ t ∧ t ≤ 11) :
    -11 ≤ -(c * t) ∧ -(c * t) ≤ 11 := by
  rcases hc with rfl | rfl | rfl <;> omega

theorem hex_uinv_entries {r : M3} (h : r.Hexagonal) :
    (r.uinv.m11 = -1 ∨ r.uinv.m11 = 0 ∨ r.uinv.m11 = 1) ∧ (r.uinv.m12 = -1 ∨ r.uinv.m12 = 0 ∨ r.uinv.m12 = 1) ∧
    (r.uinv.m21 = -1 ∨ r.uinv.m21 = 0 ∨ r.uinv.m21 = 1) ∧ (r.uinv.m22 = -1 ∨ r.uinv.m22 = 0 ∨ r.uinv.m22 = 1) ∧
    r.uinv.m13 = 0 ∧ r.uinv.m23 = 0 ∧ r.uinv.m31 = 0 ∧ r.uinv.m32 = 0 :=
  (show ∀ r ∈ hexExplicit,
    (r.uinv.m11 = -1 ∨ r.uinv.m11 = 0 ∨ r.uinv.m11 = 1) ∧ (r.uinv.m12 = -1 ∨ r.uinv.m12 = 0 ∨ r.uinv.m12 = 1) ∧
    (r.uinv.m21 = -1 ∨ r.uinv.m21 = 0 ∨ r.uinv.m21 = 1) ∧ (r.uinv.m22 = -1 ∨ r.uinv.m22 = 0 ∨ r.uinv.m22 = 1) ∧
    r.uinv.m13 = 0 ∧ r.uinv.m23 = 0 ∧ r.uinv.m31 = 0 ∧ r.uinv.m32 = 0 by decide +kernel) r (hex_mem_explicit h)

/-- The deviation of the computed inverse translation: `-sign` for a lossy sum, zero otherwise. -/
theorem floatSum_neg {a b : Int} (ha : -11 ≤ -a ∧ -a ≤ 11) (hb : -11 ≤ -b ∧ -b ≤ 11) :
    floatSum (-a) (-b) = -(a + b) + (if Lossy a b then Int.sign (a + b) else 0) := by
  rw [floatSum_eq ha hb]
  simp only [lossy_neg]
  split
  · rw [← neg_add, Int.sign_neg]; ring
  · ring

/-- C05 (part). For the hexagonal cell the rotation part returned is right, and the result is the inverse exactly when
neither of the first two rows adds a lossy pair of twelfths; otherwise it is wrong. -/
theorem try_inverse_hexagonal (m : M4) (ha : m.Affine) (hR : m.rot.Hexagonal) (ht : m.tr.Small) :
    ∃ n, m.tryInverse = some n ∧ n.Affine ∧ n.rot.mul m.rot = M3.one ∧ m.rot.mul n.rot = M3.one ∧
      (M4.eqv (n.mul m) M4.identity = true ↔
        ¬ Lossy (n.rot.m11 * m.tr.x) (n.rot.m12 * m.tr.y) ∧ ¬ Lossy (n.rot.m21 * m.tr.x) (n.rot.m22 * m.tr.y)) ∧
      (M4.eqv (m.mul n) M4.identity = true ↔
        ¬ Lossy (n.rot.m11 * m.tr.x) (n.rot.m12 * m.tr.y) ∧ ¬ Lossy (n.rot.m21 * m.tr.x) (n.rot.m22 * m.tr.y)) := by
  have hu := hR.unimod
  have he := tryInverse_hex m.rot hR m.tr ht
  rw [← ha.eta] at he
  obtain ⟨h11, h12, h21, h22, h13, h23, h31, h32⟩ := hex_uinv_entries hR
  obtain ⟨hx, hy, hz⟩ := ht
  have s1 := floatSum_neg (small_mul h11 hx) (small_mul h12 hy)
  have s2 := floatSum_neg (small_mul h21 hx) (small_mul h22 hy)
  refine ⟨_, he, ⟨rfl, rfl⟩, M3.uinv_mul hu, M3.mul_uinv hu, ?_⟩
  set n : M4 := ⟨m.rot.uinv, ⟨floatSum (-(m.rot.uinv.m11 * m.tr.x)) (-(m.rot.uinv.m12 * m.tr.y)),
    floatSum (-(m.rot.uinv.m21 * m.tr.x)) (-(m.rot.uinv.m22 * m.tr.y)), -(m.rot.uinv.m33 * m.tr.z)⟩, V3.zero, 1⟩
    with hn
  have hna : n.Affine := ⟨rfl, rfl⟩
  -- the exact case
  have exact : ¬ Lossy (n.rot.m11 * m.tr.x) (n.rot.m12 * m.tr.y) ∧ ¬ Lossy (n.rot.m21 * m.tr.x) (n.rot.m22 * m.tr.y) →
      n = m.uinv := by
    intro ⟨l1, l2⟩
    rw [if_neg l1] at s1
    rw [if_neg l2] at s2
    rw [hn]
    simp only [M4.uinv, s1, s2, M3.mulVec, V3.neg, h13, h23, h31, h32, zero_mul, add_zero, zero_add]
  -- the other direction, for `n * m`
  have other : M4.eqv (n.mul m) M4.identity = true →
      ¬ Lossy (n.rot.m11 * m.tr.x) (n.rot.m12 * m.tr.y) ∧ ¬ Lossy (n.rot.m21 * m.tr.x) (n.rot.m22 * m.tr.y) := by
    intro h
    have h' : M4.eqv (n.mulRaw m) M4.identity = true := by
      have e := M4.eqv_mulRaw_mul n m
      exact eq_equivalence.trans e h
    obtain ⟨-, c1, c2, -⟩ := M4.eqv_iff.1 h'
    have w1 : m.w = 1 := ha.2
    simp only [M4.mulRaw, M3.mulVec, V3.add, V3.smul, w1, M4.identity, M4.one, V3.zero, one_mul, hn, s1, s2, h13, h23,
      zero_mul, add_zero] at c1 c2
    have sg : ∀ x : Int, x ≠ 0 → x.sign = 1 ∨ x.sign = -1 := fun x hx => by
      rcases lt_or_gt_of_ne hx with h | h
      · right; exact Int.sign_eq_neg_one_of_neg h
      · left; exact Int.sign_eq_one_of_pos h
    constructor
    · intro l
      have := sg _ (lossy_sum_ne_zero l)
      simp only [hn] at l
      rw [if_pos l] at c1
      simp only [hn] at this
      rcases this with t | t <;> rw [t] at c1 <;> omega
    · intro l
      have := sg _ (lossy_sum_ne_zero l)
      simp only [hn] at l
      rw [if_pos l] at c2
      simp only [hn] at this
      rcases this with t | t <;> rw [t] at c2 <;> omega
  have swap : M4.eqv (m.mul n) M4.identity = true → M4.eqv (n.mul m) M4.identity = true := by
    intro h
    have hua : (M4.uinv m).Affine := ⟨rfl, rfl⟩
    have um : M4.eqv (m.uinv.mul m) M4.identity = true :=
      eqv_identity_of_act ha (fun p => congrFun (M4.uinv_act hu) p)
    have e1 : M4.eqv n m.uinv = true := by
      have a1 : M4.eqv (m.uinv.mul (m.mul n)) (m.uinv.mul M4.identity) = true :=
        mul_respects_eq (ha.mul hna) ⟨rfl, rfl⟩ (eq_equivalence.refl _) h
      have a2 : M4.eqv ((m.uinv.mul m).mul n) (M4.identity.mul n) = true :=
        mul_respects_eq hna hna um (eq_equivalence.refl _)
      have a3 := mul_assoc_eq m.uinv m n ha hna
      have a4 := (identity_neutral m.uinv hua).2
      have a5 := (identity_neutral n hna).1
      exact eq_equivalence.trans (eq_equivalence.symm a5) (eq_equivalence.trans (eq_equivalence.symm a2)
        (eq_equivalence.trans a3 (eq_equivalence.trans a1 a4)))
    exact eq_equivalence.trans (mul_respects_eq ha ha e1 (eq_equivalence.refl _)) um
  refine ⟨⟨other, fun h => ?_⟩, ⟨fun h => other (swap h), fun h => ?_⟩⟩
  · rw [exact h]
    exact eqv_identity_of_act ha (fun p => congrFun (M4.uinv_act hu) p)
  · rw [exact h]
    exact eqv_identity_of_act ⟨rfl, rfl⟩ (fun p => congrFun (M4.act_uinv hu) p)

/-- The hypotheses and both sides of the equivalence occur: a sixfold screw operation is inverted correctly, a threefold
rotation with a translation is not. -/
example : (⟨1, -1, 0, 1, 0, 0, 0, 0, 1⟩ : M3).Hexagonal ∧ (⟨4, 8, 2⟩ : V3).Small ∧
    ¬ Lossy (0 * 4) (1 * 8) ∧ ¬ Lossy (-1 * 4) (1 * 8) ∧ Lossy (1 * 5) (-1 * 6) :=
  ⟨by decide, by simp [V3.Small], by decide, by decide, by decide⟩

/-- C05 is false for the hexagonal cell: the threefold operation `-x+y+5/12, -x+1/2, z+1/4` has an exact inverse, but
`try_inverse` returns another operation, and the product with it is not the identity. -/
theorem try_inverse_wrong :
    ∃ m n : M4, m.Affine ∧ m.rot.Hexagonal ∧ m.tr.Small ∧ m.tryInverse = some n ∧
      M4.eqv (m.mul n) M4.identity = false ∧ M4.eqv (n.mul m) M4.identity = false :=
  ⟨⟨⟨-1, 1, 0, -1, 0, 0, 0, 0, 1⟩, ⟨5, 6, 3⟩, ⟨0, 0, 0⟩, 1⟩, ⟨⟨0, -1, 0, 1, -1, 0, 0, 0, 1⟩, ⟨6, 0, -3⟩, ⟨0, 0, 0⟩, 1⟩,
    ⟨rfl, rfl⟩, by decide, by simp [V3.Small], by decide +kernel, by decide, by decide⟩

/-! ## Exactness on integers -/

/-- Every entry of the rotation part has absolute value at most `B`. -/
def M3.Bounded (r : M3) (B : Int) : Prop := ∀ v ∈ r.toList, |v| ≤ B

theorem fmul_int {a b : Int} (h : |a * b| ≤ 2 ^ 53) : fmul (a : Rat) (b : Rat) = ((a * b : Int) : Rat) := by
  have := rnd_exact (IsF64.int h)
  rw [fmul]; push_cast at this ⊢; exact this

theorem fadd_int {a b : Int} (h : |a + b| ≤ 2 ^ 53) : fadd (a : Rat) (b : Rat) = ((a + b : Int) : Rat) := by
  have := rnd_exact (IsF64.int h)
  rw [fadd]; push_cast at this ⊢; exact this

theorem fsub_int {a b : Int} (h : |a - b| ≤ 2 ^ 53) : fsub (a : Rat) (b : Rat) = ((a - b : Int) : Rat) := by
  have := rnd_exact (IsF64.int h)
  rw [fsub]; push_cast at this ⊢; exact this

theorem toI32_int {n : Int} (h : |n| ≤ 2147483647) : toI32 (n : Rat) = n := by
  rw [abs_le] at h
  have e : Int.tdiv (n : Rat).num ((n : Rat).den : Int) = n := by simp
  unfold toI32
  simp only [e]
  split
  · omega
  · split <;> omega

theorem abs_mul_le {a b A B : Int} (ha : |a| ≤ A) (hb : |b| ≤ B) : |a * b| ≤ A * B := by
  rw [abs_mul]
  exact mul_le_mul ha hb (abs_nonneg b) (le_trans (abs_nonneg a) ha)

theorem abs_sub_le' {a b A B : Int} (ha : |a| ≤ A) (hb : |b| ≤ B) : |a - b| ≤ A + B :=
  le_trans (abs_sub a b) (add_le_add ha hb)

theorem abs_add_le' {a b A B : Int} (ha : |a| ≤ A) (hb : |b| ≤ B) : |a + b| ≤ A + B :=
  le_trans (abs_add_le a b) (add_le_add ha hb)

/-- The `f64` determinant of an integer matrix is the integer determinant (used by C09, C10, C11 through `M4.det`): for
entries up to 700 in absolute value nothing is rounded and the cast to `i32` does not saturate. -/
theorem det_exact (m : M4) (h : m.rot.Bounded 700) : m.detF64 = m.det := by
  obtain ⟨⟨a, b, c, d, e, f, g, h', i⟩, t, bt, w⟩ := m
  simp only [M3.Bounded, M3.toList, List.mem_cons, List.not_mem_nil, or_false, forall_eq_or_imp, forall_eq] at h
  obtain ⟨ha, hb, hc, hd, he, hf, hg, hh, hi⟩ := h
  have q1 := abs_mul_le he hi
  have q2 := abs_mul_le hh hf
  have q3 := abs_mul_le hd hi
  have q4 := abs_mul_le hg hf
  have q5 := abs_mul_le hd hh
  have q6 := abs_mul_le hg he
  have r1 := abs_sub_le' q1 q2
  have r2 := abs_sub_le' q3 q4
  have r3 := abs_sub_le' q5 q6
  have s1 := abs_mul_le ha r1
  have s2 := abs_mul_le hb r2
  have s3 := abs_mul_le hc r3
  have u1 := abs_sub_le' s1 s2
  have u2 := abs_add_le' u1 s3
  simp only [M4.detF64, M4.det, M3.det]
  rw [fmul_int (le_trans q1 (by norm_num)), fmul_int (le_trans q2 (by norm_num)), fmul_int (le_trans q3 (by norm_num)),
    fmul_int (le_trans q4 (by norm_num)), fmul_int (le_trans q5 (by norm_num)), fmul_int (le_trans q6 (by norm_num)),
    fsub_int (le_trans r1 (by norm_num)), fsub_int (le_trans r2 (by norm_num)), fsub_int (le_trans r3 (by norm_num)),
    fmul_int (le_trans s1 (by norm_num)), fmul_int (le_trans s2 (by norm_num)), fmul_int (le_trans s3 (by norm_num)),
    fsub_int (le_trans u1 (by norm_num)), fadd_int (le_trans u2 (by norm_num)), toI32_int (le_trans u2 (by norm_num))]

example : (⟨0, -1, 0, 1, -1, 0, 0, 0, 700⟩ : M3).Bounded 700 := by
  simp [M3.Bounded, M3.toList]

theorem cofactor_pos_int {a b c d : Int} (ha : |a| ≤ 700) (hb : |b| ≤ 700) (hc : |c| ≤ 700) (hd : |d| ≤ 700) :
    sumPos (fmul (fmul a b) 1) 0 (fmul (fmul c d) 1) 0 0 0 = ((a * b - c * d : Int) : Rat) := by
  have q1 := abs_mul_le ha hb
  have q2 := abs_mul_le hc hd
  have r := abs_sub_le' q1 q2
  simp only [sumPos, fmul_one_right (IsF64.fmul _ _), fsub_zero_right (IsF64.fmul _ _),
    fadd_zero_right (IsF64.fsub _ _), fsub_zero_right (IsF64.fsub _ _)]
  rw [fmul_int (le_trans q1 (by norm_num)), fmul_int (le_trans q2 (by norm_num)), fsub_int (le_trans r (by norm_num))]

theorem cofactor_neg_int {a b c d : Int} (ha : |a| ≤ 700) (hb : |b| ≤ 700) (hc : |c| ≤ 700) (hd : |d| ≤ 700) :
    sumNeg (fmul (fmul a b) 1) 0 (fmul (fmul c d) 1) 0 0 0 = ((-(a * b) + c * d : Int) : Rat) := by
  have q1 := abs_mul_le ha hb
  have q2 := abs_mul_le hc hd
  have q1' : |-(a * b)| ≤ 700 * 700 := by rwa [abs_neg]
  have r := abs_add_le' q1' q2
  simp only [sumNeg, fmul_one_right (IsF64.fmul _ _), fadd_zero_right (IsF64.fmul _ _).neg,
    fsub_zero_right (IsF64.fadd _ _), fadd_zero_right (IsF64.fadd _ _)]
  rw [fmul_int (le_trans q1 (by norm_num)), fmul_int (le_trans q2 (by norm_num)), ← Int.cast_neg,
    fadd_int (le_trans r (by norm_num))]

/-- C05. `try_inverse` returns `None` exactly for singular rotation parts, whatever the translation. -/
theorem try_inverse_none_iff (m : M4) (ha : m.Affine) (h : m.rot.Bounded 700) :
    m.tryInverse = none ↔ m.rot.det = 0 := by
  obtain ⟨⟨a, b, c, d, e, f, g, h', i⟩, t, bt, w⟩ := m
  obtain ⟨h1, h2⟩ := ha
  simp only at h1 h2
  subst h1 h2
  simp only [M3.Bounded, M3.toList, List.mem_cons, List.not_mem_nil, or_false, forall_eq_or_imp, forall_eq] at h
  obtain ⟨ha, hb, hc, hd, he, hf, hg, hh, hi⟩ := h
  have r1 := abs_sub_le' (abs_mul_le he hi) (abs_mul_le hf hh)
  have r2 := abs_add_le' (show |-(b * i)| ≤ 700 * 700 by rw [abs_neg]; exact abs_mul_le hb hi) (abs_mul_le hc hh)
  have r3 := abs_sub_le' (abs_mul_le hb hf) (abs_mul_le hc he)
  have s1 := abs_mul_le ha r1
  have s2 := abs_mul_le hd r2
  have s3 := abs_mul_le hg r3
  have u1 := abs_add_le' s1 s2
  have u2 := abs_add_le' u1 s3
  have key : (M4.toF64 ⟨⟨a, b, c, d, e, f, g, h', i⟩, t, ⟨0, 0, 0⟩, 1⟩).det4 =
      ((a * (e * i - f * h') + d * (-(b * i) + c * h') + g * (b * f - c * e) : Int) : Rat) := by
    simp only [F16.det4, F16.cofactor, F16.p, M4.toF64, Int.cast_zero, Int.cast_one, fmul_zero_left, fmul_zero_right]
    rw [cofactor_pos_int he hi hf hh, cofactor_neg_int hb hi hc hh, cofactor_pos_int hb hf hc he,
      fmul_int (le_trans s1 (by norm_num)), fmul_int (le_trans s2 (by norm_num)), fmul_int (le_trans s3 (by norm_num)),
      fadd_int (le_trans u1 (by norm_num)), fadd_int (le_trans u2 (by norm_num)),
      fadd_zero_right (IsF64.int (le_trans u2 (by norm_num)))]
  have e0 : (a * (e * i - f * h') + d * (-(b * i) + c * h') + g * (b * f - c * e)) =
      M3.det ⟨a, b, c, d, e, f, g, h', i⟩ := by simp only [M3.det]; ring
  simp only [M4.tryInverse, F16.tryInverse, key, e0, Int.cast_eq_zero]
  by_cases h0 : M3.det ⟨a, b, c, d, e, f, g, h', i⟩ = 0 <;> simp [h0]

example : M4.tryInverse ⟨⟨1, 1, 0, 1, 1, 0, 0, 0, 1⟩, ⟨1, 2, 3⟩, ⟨0, 0, 0⟩, 1⟩ = none :=
  (try_inverse_none_iff _ ⟨rfl, rfl⟩ (by simp [M3.Bounded, M3.toList])).2 (by decide)

/-! ## Powers -/

theorem M4.powLoop_eq (m : M4) (k : Nat) : m.powLoop k = m.powNat (k + 1) := rfl

/-- The permutation of all points given by an operation with determinant ±1. -/
def M4.perm (m : M4) (h : m.rot.Unimod) : Equiv.Perm Pt where
  toFun := m.act
  invFun := m.uinv.act
  left_inv p := congrFun (M4.uinv_act h) p
  right_inv p := congrFun (M4.act_uinv h) p

theorem M4.perm_pow (m : M4) (h : m.rot.Unimod) (k : Nat) (p : Pt) : (m.perm h ^ k) p = (m.act)^[k] p := by
  rw [← Equiv.Perm.iterate_eq_pow]; rfl

/-- Every power of a cubic operation, as a power of its permutation. -/
theorem powi_perm (m : M4) (ha : m.Affine) (hR : m.rot.Cubic) (ht : m.tr.Small) (k : Int) :
    ∃ z, m.powi k = .ok z ∧ z.Affine ∧ ∀ p, z.act p = (m.perm hR.unimod ^ k) p := by
  cases k with
  | ofNat k =>
    refine ⟨_, rfl, ha.powNat k, fun p => ?_⟩
    rw [powi_is_iteration m ha, Int.ofNat_eq_natCast, zpow_natCast, M4.perm_pow]
  | negSucc k =>
    have hi := tryInverse_cubic m.rot hR m.tr ht
    rw [← ha.eta] at hi
    have hu : m.uinv.Affine := ⟨rfl, rfl⟩
    refine ⟨m.uinv.powLoop k, by simp only [M4.powi, hi], hu.powNat (k + 1), fun p => ?_⟩
    rw [M4.powLoop_eq, powi_is_iteration _ hu, zpow_negSucc, ← inv_pow, ← Equiv.Perm.iterate_eq_pow]
    rfl

/-- C06 (part). For an operation whose rotation is a symmetry of the cubic cell and whose translation is reduced, `powi`
never panics, and for all integer exponents, negative ones included, `powi(a+b)` is `powi(a)` after `powi(b)`, `powi(0)`
does nothing, `powi(1)` is the operation; so `powi(-n)` undoes `powi(n)`. -/
theorem powi_laws_partial (m : M4) (ha : m.Affine) (hR : m.rot.Cubic) (ht : m.tr.Small) (a b : Int) :
    ∃ x y z u, m.powi a = .ok x ∧ m.powi b = .ok y ∧ m.powi (a + b) = .ok z ∧ m.powi (-a) = .ok u ∧
      m.powi 0 = .ok M4.identity ∧ m.powi 1 = .ok m ∧
      (∀ p, z.act p = x.act (y.act p)) ∧ (∀ p, u.act (x.act p) = p) ∧ (∀ p, x.act (u.act p) = p) ∧
      M4.eqv z (x.mul y) = true ∧ M4.eqv (u.mul x) M4.identity = true := by
  obtain ⟨x, hx, ax, ex⟩ := powi_perm m ha hR ht a
  obtain ⟨y, hy, ay, ey⟩ := powi_perm m ha hR ht b
  obtain ⟨z, hz, az, ez⟩ := powi_perm m ha hR ht (a + b)
  obtain ⟨u, hu, au, eu⟩ := powi_perm m ha hR ht (-a)
  have c1 : ∀ p, z.act p = x.act (y.act p) := fun p => by
    rw [ez, ex, ey, zpow_add]; rfl
  have c2 : ∀ p, u.act (x.act p) = p := fun p => by
    rw [eu, ex, ← Equiv.Perm.mul_apply, ← zpow_add]; simp
  have c3 : ∀ p, x.act (u.act p) = p := fun p => by
    rw [eu, ex, ← Equiv.Perm.mul_apply, ← zpow_add]; simp
  refine ⟨x, y, z, u, hx, hy, hz, hu, rfl, rfl, c1, c2, c3, ?_, eqv_identity_of_act ax c2⟩
  rw [eq_iff_same_operation]
  obtain ⟨k, hk⟩ := mul_is_composition x y ay
  refine ⟨k.neg, fun p => ?_⟩
  rw [hk p, c1 p]
  ext <;> simp [Pt.addCell, V3.neg]

example : (M4.powi ⟨⟨0, -1, 0, 1, 0, 0, 0, 0, 1⟩, ⟨0, 0, 3⟩, ⟨0, 0, 0⟩, 1⟩ (-5)).toOption
    = some ⟨⟨0, 1, 0, -1, 0, 0, 0, 0, 1⟩, ⟨0, 0, -15⟩, ⟨0, 0, 0⟩, 1⟩ := by decide +kernel

/-- C06 is false for negative exponents in the hexagonal cell: `powi(-1)` of this threefold operation times the operation
itself is not the identity. -/
theorem powi_minus_one_wrong :
    ∃ m n : M4, m.Affine ∧ m.rot.Hexagonal ∧ m.tr.Small ∧ m.powi (-1) = .ok n ∧
      M4.eqv (n.mul (m.powNat 1)) M4.identity = false :=
  ⟨⟨⟨-1, 1, 0, -1, 0, 0, 0, 0, 1⟩, ⟨5, 6, 3⟩, ⟨0, 0, 0⟩, 1⟩, ⟨⟨0, -1, 0, 1, -1, 0, 0, 0, 1⟩, ⟨6, 0, -3⟩, ⟨0, 0, 0⟩, 1⟩,
    ⟨rfl, rfl⟩, by decide, by simp [V3.Small], by
      have h : M4.tryInverse ⟨⟨-1, 1, 0, -1, 0, 0, 0, 0, 1⟩, ⟨5, 6, 3⟩, ⟨0, 0, 0⟩, 1⟩
        = some ⟨⟨0, -1, 0, 1, -1, 0, 0, 0, 1⟩, ⟨6, 0, -3⟩, ⟨0, 0, 0⟩, 1⟩ := by decide +kernel
      show (match M4.tryInverse _ with | some inv => _ | none => _) = _
      rw [h]; rfl, by decide⟩

end Verif
