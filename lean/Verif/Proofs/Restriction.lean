import Mathlib.LinearAlgebra.Matrix.ToLinearEquiv
import Mathlib.LinearAlgebra.Matrix.Notation
import Mathlib.LinearAlgebra.Matrix.Determinant.Basic
import Mathlib.Analysis.Complex.Polynomial.Basic
import Mathlib.Tactic.NoncommRing
import Mathlib.Tactic.ComputeDegree
import Mathlib.Tactic.FinCases
import Mathlib.Tactic.IntervalCases
import Verif.Proofs.Basic
import Verif.Spec.Rotation

/-! # The crystallographic restriction, from finite multiplicative order -/

namespace Verif

open Matrix

/-- Second invariant: sum of the principal 2x2 minors. -/
def M3.minors (a : M3) : Int :=
  (a.m11 * a.m22 - a.m12 * a.m21) + (a.m11 * a.m33 - a.m13 * a.m31) + (a.m22 * a.m33 - a.m23 * a.m32)

theorem exists_three_roots (t s d : ℂ) : ∃ a b c : ℂ, a + b + c = t ∧ a * b + b * c + c * a = s ∧ a * b * c = d := by
  classical
  have h3 : (Polynomial.X ^ 3 - Polynomial.C t * Polynomial.X ^ 2 + Polynomial.C s * Polynomial.X
      - Polynomial.C d : Polynomial ℂ).degree = 3 := by compute_degree!
  obtain ⟨a, ha⟩ := IsAlgClosed.exists_root _ (by rw [h3]; decide)
  simp only [Polynomial.IsRoot, Polynomial.eval_add, Polynomial.eval_sub, Polynomial.eval_mul, Polynomial.eval_pow,
    Polynomial.eval_X, Polynomial.eval_C] at ha
  -- quadratic x² + u x + v with u = a - t, v = s + a*u
  obtain ⟨z, hz⟩ := IsAlgClosed.exists_pow_nat_eq ((a - t) ^ 2 - 4 * (s + a * (a - t))) (n := 2) (by decide)
  refine ⟨a, (-(a - t) + z) / 2, (-(a - t) - z) / 2, by ring, ?_, ?_⟩
  · linear_combination (-1 / 4 : ℂ) * hz
  · linear_combination (-a / 4 : ℂ) * hz + ha

/-- The complex matrix of `a`. -/
def M3.toC (a : M3) : Matrix (Fin 3) (Fin 3) ℂ :=
  !![(a.m11 : ℂ), a.m12, a.m13; (a.m21 : ℂ), a.m22, a.m23; (a.m31 : ℂ), a.m32, a.m33]

theorem M3.toC_one : M3.one.toC = 1 := by
  ext i j; fin_cases i <;> fin_cases j <;> simp [M3.toC, M3.one]

theorem M3.toC_mul (a b : M3) : (a.mul b).toC = a.toC * b.toC := by
  ext i j
  fin_cases i <;> fin_cases j <;>
    simp [M3.toC, M3.mul, Matrix.mul_apply, Fin.sum_univ_three]

theorem M3.toC_pow (a : M3) (k : Nat) : (a.pow k).toC = a.toC ^ k := by
  induction k with
  | zero => rw [pow_zero]; exact M3.toC_one
  | succ k ih => rw [M3.pow, M3.toC_mul, ih, pow_succ]

theorem M3.toC_inj {a b : M3} (h : a.toC = b.toC) : a = b := by
  have hh : ∀ i j, a.toC i j = b.toC i j := fun i j => by rw [h]
  have e11 := hh 0 0; have e12 := hh 0 1; have e13 := hh 0 2
  have e21 := hh 1 0; have e22 := hh 1 1; have e23 := hh 1 2
  have e31 := hh 2 0; have e32 := hh 2 1; have e33 := hh 2 2
  simp [M3.toC] at e11 e12 e13 e21 e22 e23 e31 e32 e33
  exact M3.ext e11 e12 e13 e21 e22 e23 e31 e32 e33

/-- A root of the characteristic polynomial of a matrix of finite order has absolute value one. -/
theorem M3.root_norm {a : M3} {k : Nat} (hk : 0 < k) (h : a.pow k = M3.one) {μ : ℂ}
    (hμ : μ ^ 3 - (a.trace : ℂ) * μ ^ 2 + (a.minors : ℂ) * μ - (a.det : ℂ) = 0) : ‖μ‖ = 1 := by
  have hdet : (a.toC - μ • (1 : Matrix (Fin 3) (Fin 3) ℂ)).det = 0 := by
    rw [Matrix.det_fin_three]
    simp only [M3.toC, M3.trace, M3.minors, M3.det, Matrix.sub_apply, Matrix.smul_apply, smul_eq_mul,
      Matrix.one_apply] at hμ ⊢
    simp
    push_cast at hμ
    linear_combination -hμ
  obtain ⟨v, hv, hv0⟩ := Matrix.exists_mulVec_eq_zero_iff.2 hdet
  have hev : a.toC *ᵥ v = μ • v := by
    rw [Matrix.sub_mulVec, Matrix.smul_mulVec, Matrix.one_mulVec] at hv0
    exact sub_eq_zero.1 hv0
  have hpow : ∀ n, (a.toC ^ n) *ᵥ v = (μ ^ n) • v := by
    intro n
    induction n with
    | zero => simp
    | succ n ih =>
      rw [pow_succ, ← Matrix.mulVec_mulVec, hev, Matrix.mulVec_smul, ih, smul_smul, pow_succ, mul_comm]
  have h1 := hpow k
  rw [← M3.toC_pow, h, M3.toC_one, Matrix.one_mulVec] at h1
  have h2 : (1 - μ ^ k) • v = 0 := by rw [sub_smul, one_smul, ← h1, sub_self]
  rcases smul_eq_zero.1 h2 with h3 | h3
  · have h4 : μ ^ k = 1 := (sub_eq_zero.1 h3).symm
    exact Complex.norm_eq_one_of_pow_eq_one h4 (by omega)
  · exact absurd h3 hv

/-- For determinant 1 and finite order, the two invariants agree and the trace is between -1 and 3. -/
theorem M3.trace_bounds {a : M3} {k : Nat} (hk : 0 < k) (h : a.pow k = M3.one) (hd : a.det = 1) :
    a.minors = a.trace ∧ -1 ≤ a.trace ∧ a.trace ≤ 3 := by
  obtain ⟨x, y, z, e1, e2, e3⟩ := exists_three_roots (a.trace : ℂ) (a.minors : ℂ) (a.det : ℂ)
  have hroot : ∀ μ, (μ - x) * (μ - y) * (μ - z) = 0 →
      μ ^ 3 - (a.trace : ℂ) * μ ^ 2 + (a.minors : ℂ) * μ - (a.det : ℂ) = 0 := by
    intro μ hμ
    rw [← e1, ← e2, ← e3]
    linear_combination hμ
  have nx := M3.root_norm hk h (hroot x (by ring))
  have ny := M3.root_norm hk h (hroot y (by ring))
  have nz := M3.root_norm hk h (hroot z (by ring))
  have conj_mul : ∀ {w : ℂ}, ‖w‖ = 1 → (starRingEnd ℂ) w * w = 1 := by
    intro w hw
    rw [← Complex.normSq_eq_conj_mul_self, Complex.normSq_eq_norm_sq, hw]; simp
  have cx := conj_mul nx
  have cy := conj_mul ny
  have cz := conj_mul nz
  have hd1 : x * y * z = 1 := by rw [e3, hd]; simp
  have hs : (a.minors : ℂ) = (a.trace : ℂ) := by
    have hc : (starRingEnd ℂ) (a.trace : ℂ) = (a.trace : ℂ) := map_intCast _ _
    rw [← e1, map_add, map_add] at hc
    rw [← e2, ← e1, ← hc]
    linear_combination (y * z * cx + z * x * cy + x * y * cz) * (-1 : ℂ)
      + ((starRingEnd ℂ) x + (starRingEnd ℂ) y + (starRingEnd ℂ) z) * hd1
  have hst : a.minors = a.trace := by exact_mod_cast hs
  refine ⟨hst, ?_⟩
  -- one of the roots is 1
  have h1 : (1 - x) * (1 - y) * (1 - z) = 0 := by
    have : (1 - x) * (1 - y) * (1 - z) = 1 - (x + y + z) + (x * y + y * z + z * x) - x * y * z := by ring
    rw [this, e1, e2, hd1, hs]; ring
  -- the sum of the other two, mutually inverse unit numbers
  have key : ∀ p q : ℂ, ‖p‖ = 1 → ‖q‖ = 1 → (a.trace : ℂ) = 1 + p + q → p * q = 1 →
      -1 ≤ a.trace ∧ a.trace ≤ 3 := by
    intro p q hp hq ht hpq
    have hqp : q = (starRingEnd ℂ) p := by
      have := conj_mul hp
      have hp0 : p ≠ 0 := by intro h0; rw [h0] at hpq; simp at hpq
      have : p * q = p * (starRingEnd ℂ) p := by rw [hpq, mul_comm p, this]
      exact mul_left_cancel₀ hp0 this
    have hre : (a.trace : ℝ) = 1 + 2 * p.re := by
      have := congrArg Complex.re ht
      rw [hqp] at this
      simp at this
      linarith
    have hb := Complex.abs_re_le_norm p
    rw [hp, abs_le] at hb
    constructor
    · have : (-1 : ℝ) ≤ a.trace := by rw [hre]; linarith [hb.1]
      exact_mod_cast this
    · have : (a.trace : ℝ) ≤ 3 := by rw [hre]; linarith [hb.2]
      exact_mod_cast this
  rcases mul_eq_zero.1 h1 with h2 | h2
  · rcases mul_eq_zero.1 h2 with h3 | h3
    · have hx : x = 1 := (sub_eq_zero.1 h3).symm
      exact key y z ny nz (by rw [← e1, hx]) (by rw [← hd1, hx]; ring)
    · have hy : y = 1 := (sub_eq_zero.1 h3).symm
      exact key x z nx nz (by rw [← e1, hy]; ring) (by rw [← hd1, hy]; ring)
  · have hz : z = 1 := (sub_eq_zero.1 h2).symm
    exact key x y nx ny (by rw [← e1, hz]; ring) (by rw [← hd1, hz]; ring)

/-! ## Exact orders -/

theorem M3.pow_one' (a : M3) : a.pow 1 = a := M3.one_mul a

theorem M3.pow_add (a : M3) (i j : Nat) : a.pow (i + j) = (a.pow i).mul (a.pow j) := by
  induction j with
  | zero => exact (M3.mul_one _).symm
  | succ j ih => rw [← Nat.add_assoc, M3.pow, ih, M3.mul_assoc]; rfl

theorem M3.pow_mul (a : M3) (i j : Nat) : a.pow (i * j) = (a.pow i).pow j := by
  induction j with
  | zero => rfl
  | succ j ih => rw [Nat.mul_succ, M3.pow_add, ih]; rfl

theorem M3.one_pow (k : Nat) : M3.one.pow k = M3.one := by
  induction k with
  | zero => rfl
  | succ k ih => rw [M3.pow, ih]; exact M3.one_mul _

theorem M3.det_one : M3.one.det = 1 := by decide

theorem M3.det_pow (a : M3) (k : Nat) : (a.pow k).det = a.det ^ k := by
  induction k with
  | zero => rw [pow_zero]; exact M3.det_one
  | succ k ih => rw [M3.pow, M3.det_mul, ih, pow_succ]

/-- A finite-order integer matrix with trace 3 and determinant 1 is the identity. -/
theorem M3.eq_one_of_trace {a : M3} {k : Nat} (hk : 0 < k) (h : a.pow k = M3.one) (hd : a.det = 1)
    (ht : a.trace = 3) : a = M3.one := by
  have hs : a.minors = 3 := (M3.trace_bounds hk h hd).1.trans ht
  set A := a.toC with hA
  have hN3 : (A - 1) ^ 3 = 0 := by
    have hch : ((a.mul a).mul a).toC = (3 : ℂ) • (a.mul a).toC - (3 : ℂ) • a.toC + 1 := by
      have g : ∀ a : M3, ((a.mul a).mul a).toC
          = (a.trace : ℂ) • (a.mul a).toC - (a.minors : ℂ) • a.toC + (a.det : ℂ) • 1 := by
        intro a
        ext i j
        fin_cases i <;> fin_cases j <;>
          simp [M3.toC, M3.mul, M3.trace, M3.minors, M3.det] <;> ring
      rw [g a, ht, hs, hd]; simp
    rw [M3.toC_mul, M3.toC_mul, ← hA] at hch
    have e : (A - 1) ^ 3 = A * A * A - (3 : ℂ) • (A * A) + (3 : ℂ) • A - 1 := by
      simp only [show (3 : ℂ) = ((3 : ℕ) : ℂ) by norm_num, Nat.cast_smul_eq_nsmul]
      noncomm_ring
    rw [e, hch]; noncomm_ring
  have hpow : A ^ k = 1 := by rw [← M3.toC_pow, h, M3.toC_one]
  have hbin : ∀ n : Nat, A ^ n = 1 + (n : ℂ) • (A - 1) + ((n : ℂ) * (n - 1) / 2) • (A - 1) ^ 2 := by
    intro n
    induction n with
    | zero => simp
    | succ n ih =>
      have hsplit : A = 1 + (A - 1) := by abel
      have : A ^ (n + 1) = A ^ n * (1 + (A - 1)) := by rw [← hsplit, pow_succ]
      rw [this, ih]
      have e3 : (A - 1) ^ 2 * (A - 1) = 0 := by rw [← pow_succ]; exact hN3
      simp only [mul_add, add_mul, _root_.mul_one, _root_.one_mul, Matrix.smul_mul, e3, smul_zero, add_zero, ← pow_two]
      push_cast
      module
  have h1 := hbin k
  rw [hpow] at h1
  have hk0 : (k : ℂ) ≠ 0 := by exact_mod_cast (by omega : k ≠ 0)
  have h2 : (k : ℂ) • (A - 1) + ((k : ℂ) * (k - 1) / 2) • (A - 1) ^ 2 = 0 := by
    have : (1 : Matrix (Fin 3) (Fin 3) ℂ) + ((k : ℂ) • (A - 1) + ((k : ℂ) * (k - 1) / 2) • (A - 1) ^ 2) = 1 + 0 := by
      rw [← add_assoc, ← h1, add_zero]
    exact add_left_cancel this
  have h3 : (k : ℂ) • (A - 1) ^ 2 = 0 := by
    have := congrArg (fun M => M * (A - 1)) h2
    simp only [add_mul, Matrix.smul_mul, zero_mul, ← pow_two] at this
    rw [← pow_succ, hN3, smul_zero, add_zero] at this
    exact this
  have h4 : (A - 1) ^ 2 = 0 := (smul_eq_zero.1 h3).resolve_left hk0
  rw [h4, smul_zero, add_zero] at h2
  have h5 : A - 1 = 0 := (smul_eq_zero.1 h2).resolve_left hk0
  apply M3.toC_inj
  rw [M3.toC_one]
  exact sub_eq_zero.1 h5

theorem M3.trace_mul_self (a : M3) : (a.mul a).trace = a.trace ^ 2 - 2 * a.minors := by
  simp only [M3.trace, M3.mul, M3.minors]; ring

theorem M3.pow_two' (a : M3) : a.pow 2 = a.mul a := by
  rw [show (2 : Nat) = 1 + 1 from rfl, M3.pow_add, M3.pow_one']

/-- Linear combination `x a² + y a + z`. -/
def M3.lin (a : M3) (x y z : Int) : M3 :=
  let q := a.mul a
  ⟨x * q.m11 + y * a.m11 + z, x * q.m12 + y * a.m12, x * q.m13 + y * a.m13,
   x * q.m21 + y * a.m21, x * q.m22 + y * a.m22 + z, x * q.m23 + y * a.m23,
   x * q.m31 + y * a.m31, x * q.m32 + y * a.m32, x * q.m33 + y * a.m33 + z⟩

/-- Cayley-Hamilton: multiplying a combination by `a`. -/
theorem M3.lin_mul (a : M3) (x y z : Int) :
    (a.lin x y z).mul a = a.lin (x * a.trace + y) (z - x * a.minors) (x * a.det) := by
  ext <;> simp only [M3.lin, M3.mul, M3.trace, M3.minors, M3.det] <;> ring

theorem M3.lin_one (a : M3) : a.lin 0 0 1 = M3.one := by ext <;> simp [M3.lin, M3.one]

theorem M3.lin_trace (a : M3) (x y z : Int) :
    (a.lin x y z).trace = x * (a.trace ^ 2 - 2 * a.minors) + y * a.trace + 3 * z := by
  simp only [M3.lin, M3.trace, M3.minors, M3.mul]; ring

theorem M3.trace_one : M3.one.trace = 3 := by decide

/-- The exact order of a determinant-one matrix of finite order, read off its trace. -/
theorem M3.order_of_trace {a : M3} {k : Nat} (hk : 0 < k) (h : a.pow k = M3.one) (hd : a.det = 1) :
    (a.trace = 3 ∧ a.HasOrder 1) ∨ (a.trace = -1 ∧ a.HasOrder 2) ∨ (a.trace = 0 ∧ a.HasOrder 3) ∨
      (a.trace = 1 ∧ a.HasOrder 4) ∨ (a.trace = 2 ∧ a.HasOrder 6) := by
  obtain ⟨hs, hlo, hhi⟩ := M3.trace_bounds hk h hd
  have ht : a.trace = 3 ∨ a.trace = -1 ∨ a.trace = 0 ∨ a.trace = 1 ∨ a.trace = 2 := by omega
  have p1 : a.pow 1 = a.lin 0 1 0 := by
    have : a.pow 1 = (a.lin 0 0 1).mul a := by rw [M3.lin_one]; rfl
    rw [this, M3.lin_mul]; simp
  have step : ∀ n x y z, a.pow n = a.lin x y z →
      a.pow (n + 1) = a.lin (x * a.trace + y) (z - x * a.trace) x := by
    intro n x y z hn
    rw [M3.pow, hn, M3.lin_mul, hd, hs, _root_.mul_one]
  have hne : ∀ n x y z, a.pow n = a.lin x y z → x * (a.trace ^ 2 - 2 * a.trace) + y * a.trace + 3 * z ≠ 3 →
      a.pow n ≠ M3.one := by
    intro n x y z hn hx hone
    apply hx
    have e := M3.lin_trace a x y z
    rw [← hn, hone, M3.trace_one, hs] at e
    exact e.symm
  have p2 := step 1 _ _ _ p1
  have p3 := step 2 _ _ _ p2
  have p4 := step 3 _ _ _ p3
  have p5 := step 4 _ _ _ p4
  have p6 := step 5 _ _ _ p5
  rcases ht with t | t | t | t | t
  · refine .inl ⟨t, by decide, ?_, fun j h0 h1 => by omega⟩
    rw [M3.pow_one']; exact M3.eq_one_of_trace hk h hd t
  · refine .inr (.inl ⟨t, by decide, ?_, fun j h0 h1 => ?_⟩)
    · rw [M3.pow_two']
      refine M3.eq_one_of_trace hk (?_ : (a.mul a).pow k = M3.one) (by rw [M3.det_mul, hd]; rfl) ?_
      · rw [← M3.pow_two', ← M3.pow_mul, Nat.mul_comm, M3.pow_mul, h, M3.one_pow]
      · rw [M3.trace_mul_self, hs, t]; rfl
    · obtain rfl : j = 1 := by omega
      exact hne 1 _ _ _ p1 (by rw [t]; decide)
  · refine .inr (.inr (.inl ⟨t, by decide, ?_, fun j h0 h1 => ?_⟩))
    · rw [p3, t, ← M3.lin_one a]; rfl
    · interval_cases j
      · exact hne 1 _ _ _ p1 (by rw [t]; decide)
      · exact hne 2 _ _ _ p2 (by rw [t]; decide)
  · refine .inr (.inr (.inr (.inl ⟨t, by decide, ?_, fun j h0 h1 => ?_⟩)))
    · rw [p4, t, ← M3.lin_one a]; rfl
    · interval_cases j
      · exact hne 1 _ _ _ p1 (by rw [t]; decide)
      · exact hne 2 _ _ _ p2 (by rw [t]; decide)
      · exact hne 3 _ _ _ p3 (by rw [t]; decide)
  · refine .inr (.inr (.inr (.inr ⟨t, by decide, ?_, fun j h0 h1 => ?_⟩)))
    · rw [p6, t, ← M3.lin_one a]; rfl
    · interval_cases j
      · exact hne 1 _ _ _ p1 (by rw [t]; decide)
      · exact hne 2 _ _ _ p2 (by rw [t]; decide)
      · exact hne 3 _ _ _ p3 (by rw [t]; decide)
      · exact hne 4 _ _ _ p4 (by rw [t]; decide)
      · exact hne 5 _ _ _ p5 (by rw [t]; decide)

end Verif
