import Verif.Model.Float

import Mathlib.Data.Rat.Cast.Order
import Mathlib.Data.Rat.Floor
import Mathlib.Algebra.Order.Field.Power
import Mathlib.Tactic.Linarith
import Mathlib.Tactic.Positivity
import Mathlib.Tactic.FieldSimp
import Mathlib.Tactic.Ring
import Mathlib.Tactic.NormNum

/-! # Rounding to `f64` -/

namespace Verif

theorem scalePow_pos (q : Rat) (s : Int) : 0 < (scalePow q s).2 := by
  unfold scalePow
  split
  · exact Nat.mul_pos q.den_pos (Nat.pow_pos (by norm_num))
  · exact q.den_pos

theorem scalePow_val (q : Rat) (s : Int) :
    ((scalePow q s).1 : Rat) / ((scalePow q s).2 : Rat) = q * (2 : Rat) ^ (-s) := by
  have hd : (q.den : Rat) ≠ 0 := by exact_mod_cast q.den_nz
  have hq : (q.num : Rat) / q.den = q := Rat.num_div_den q
  unfold scalePow
  split
  · rename_i h
    obtain ⟨k, rfl⟩ := Int.eq_ofNat_of_zero_le h
    simp only [Int.toNat_natCast, Nat.cast_mul, Nat.cast_pow, Nat.cast_ofNat, zpow_neg, zpow_natCast]
    conv_rhs => rw [← hq]
    field_simp
  · rename_i h
    obtain ⟨k, hk⟩ := Int.eq_ofNat_of_zero_le (show 0 ≤ -s by omega)
    rw [hk]
    simp only [Int.toNat_natCast, Int.cast_mul, Int.cast_pow, Int.cast_ofNat, zpow_natCast]
    conv_rhs => rw [← hq]
    field_simp

theorem floorLog2_spec {q : Rat} (h : q ≠ 0) :
    (2 : Rat) ^ (floorLog2 q) ≤ |q| ∧ |q| < (2 : Rat) ^ (floorLog2 q + 1) := by
  have hn : q.num ≠ 0 := by simpa using h
  have hna : q.num.natAbs ≠ 0 := by simpa using hn
  set a := Nat.log2 q.num.natAbs with ha
  set b := Nat.log2 q.den with hb
  have a1 : 2 ^ a ≤ q.num.natAbs := Nat.log2_self_le hna
  have a2 : q.num.natAbs < 2 ^ (a + 1) := Nat.lt_log2_self
  have b1 : 2 ^ b ≤ q.den := Nat.log2_self_le q.den_nz
  have b2 : q.den < 2 ^ (b + 1) := Nat.lt_log2_self
  have habs : |q| = (q.num.natAbs : Rat) / q.den := by
    conv_lhs => rw [← Rat.num_div_den q]
    rw [abs_div, Nat.abs_cast, Nat.cast_natAbs, Int.cast_abs]
  have hd : (0 : Rat) < q.den := by exact_mod_cast q.den_pos
  have A1 : ((2 : Rat) ^ a) ≤ q.num.natAbs := by exact_mod_cast a1
  have A2 : (q.num.natAbs : Rat) < 2 ^ (a + 1) := by exact_mod_cast a2
  have B1 : ((2 : Rat) ^ b) ≤ q.den := by exact_mod_cast b1
  have B2 : (q.den : Rat) < 2 ^ (b + 1) := by exact_mod_cast b2
  have lo : (2 : Rat) ^ ((a : Int) - b - 1) < |q| := by
    rw [habs, lt_div_iff₀ hd]
    have e : (2 : Rat) ^ ((a : Int) - b - 1) * 2 ^ (b + 1) = 2 ^ a := by
      rw [← zpow_natCast, ← zpow_natCast, ← zpow_add₀ (by norm_num)]
      congr 1; push_cast; ring
    have p : (0 : Rat) < (2 : Rat) ^ ((a : Int) - b - 1) := by positivity
    nlinarith
  have hi : |q| < (2 : Rat) ^ ((a : Int) - b + 1) := by
    rw [habs, div_lt_iff₀ hd]
    have e : (2 : Rat) ^ ((a : Int) - b + 1) * 2 ^ b = 2 ^ (a + 1) := by
      rw [← zpow_natCast, ← zpow_natCast, ← zpow_add₀ (by norm_num)]
      congr 1; push_cast; ring
    have p : (0 : Rat) < (2 : Rat) ^ ((a : Int) - b + 1) := by positivity
    nlinarith
  have key : ((scalePow q ((a : Int) - b)).1.natAbs < (scalePow q ((a : Int) - b)).2) ↔
      |q| < (2 : Rat) ^ ((a : Int) - b) := by
    have hv := scalePow_val q ((a : Int) - b)
    have hp : (0 : Rat) < ((scalePow q ((a : Int) - b)).2 : Rat) := by exact_mod_cast scalePow_pos q _
    have p : (0 : Rat) < (2 : Rat) ^ ((a : Int) - b) := by positivity
    have e : |q| = (((scalePow q ((a : Int) - b)).1.natAbs : Nat) : Rat) / (scalePow q ((a : Int) - b)).2
        * (2 : Rat) ^ ((a : Int) - b) := by
      have : |((scalePow q ((a : Int) - b)).1 : Rat) / ((scalePow q ((a : Int) - b)).2 : Rat)|
          = |q| * (2 : Rat) ^ (-((a : Int) - b)) := by
        rw [hv, abs_mul, abs_of_pos (show (0 : Rat) < (2 : Rat) ^ (-((a : Int) - b)) by positivity)]
      rw [abs_div, Nat.abs_cast] at this
      rw [Nat.cast_natAbs, Int.cast_abs, this, mul_assoc, ← zpow_add₀ (by norm_num)]
      simp
    rw [e]
    constructor
    · intro h
      have h' : (((scalePow q ((a : Int) - b)).1.natAbs : Nat) : Rat) < (scalePow q ((a : Int) - b)).2 := by
        exact_mod_cast h
      have := (div_lt_one hp).2 h'
      nlinarith
    · intro h
      have h1 : (((scalePow q ((a : Int) - b)).1.natAbs : Nat) : Rat) / (scalePow q ((a : Int) - b)).2 < 1 := by
        by_contra hc
        push Not at hc
        nlinarith
      have := (div_lt_one hp).1 h1
      exact_mod_cast this
  unfold floorLog2
  simp only [← ha, ← hb]
  by_cases hc : (scalePow q ((a : Int) - b)).1.natAbs < (scalePow q ((a : Int) - b)).2
  · rw [if_pos hc]
    exact ⟨lo.le, by rw [sub_add_cancel]; exact key.1 hc⟩
  · rw [if_neg hc]
    refine ⟨?_, hi⟩
    by_contra hh
    exact hc (key.2 (not_le.1 hh))

theorem roundHalfEven_exact (k : Int) {d : Nat} (hd : 0 < d) : roundHalfEven (k * d) d = k := by
  unfold roundHalfEven
  have h0 : (d : Int) ≠ 0 := by omega
  simp [Int.mul_ediv_cancel _ h0, hd]

theorem roundHalfEven_near (n : Int) {d : Nat} (hd : 0 < d) :
    |((roundHalfEven n d : Int) : Rat) - (n : Rat) / d| ≤ 1 / 2 := by
  have hD : (0 : Rat) < d := by exact_mod_cast hd
  have h1 := Int.emod_add_mul_ediv n d
  have h2 := Int.emod_nonneg n (show (d : Int) ≠ 0 by omega)
  have h3 := Int.emod_lt_of_pos n (show (0 : Int) < d by omega)
  have e : (n : Rat) / d = ((n / (d : Int) : Int) : Rat) + ((n % (d : Int) : Int) : Rat) / d := by
    rw [eq_comm, ← sub_eq_zero]
    field_simp
    have : (n : Rat) = ((n % (d : Int) + (d : Int) * (n / (d : Int)) : Int) : Rat) := by rw [h1]
    push_cast at this
    linarith
  have hr0 : (0 : Rat) ≤ ((n % (d : Int) : Int) : Rat) / d := by
    apply div_nonneg _ hD.le
    exact_mod_cast h2
  have lo : (2 * (n % (d : Int)) ≤ d) → ((n % (d : Int) : Int) : Rat) / d ≤ 1 / 2 := by
    intro h
    rw [div_le_iff₀ hD]
    have : (2 : Rat) * ((n % (d : Int) : Int) : Rat) ≤ d := by exact_mod_cast h
    linarith
  have hi : ((d : Int) ≤ 2 * (n % (d : Int))) → 1 / 2 ≤ ((n % (d : Int) : Int) : Rat) / d := by
    intro h
    rw [le_div_iff₀ hD]
    have : (d : Rat) ≤ (2 : Rat) * ((n % (d : Int) : Int) : Rat) := by exact_mod_cast h
    linarith
  have l1 : ((n % (d : Int) : Int) : Rat) / d < 1 := by
    rw [div_lt_one hD]; exact_mod_cast h3
  unfold roundHalfEven
  simp only
  split
  · rename_i h
    have := lo (by omega)
    rw [e, abs_le]; constructor <;> linarith
  · split
    · rename_i h
      have := hi (by omega)
      rw [e, abs_le]; push_cast; constructor <;> linarith
    · have g1 := hi (by omega)
      have g2 := lo (by omega)
      split <;> rw [e, abs_le] <;> push_cast <;> constructor <;> linarith

/-- The value of `rnd`: the rounded significand times its power of two. -/
theorem rnd_val {q : Rat} (h : q ≠ 0) :
    rnd q = ((roundHalfEven (scalePow q (floorLog2 q - 52)).1 (scalePow q (floorLog2 q - 52)).2 : Int) : Rat)
      * (2 : Rat) ^ (floorLog2 q - 52) := by
  unfold rnd
  simp only [h, if_false]
  split
  · rename_i hs
    obtain ⟨k, hk⟩ := Int.eq_ofNat_of_zero_le hs
    rw [hk]
    simp
  · rename_i hs
    obtain ⟨k, hk⟩ := Int.eq_ofNat_of_zero_le (show 0 ≤ -(floorLog2 q - 52) by omega)
    rw [hk, Int.toNat_natCast, Rat.mkRat_eq_div]
    have : (2 : Rat) ^ (floorLog2 q - 52) = ((2 : Rat) ^ k)⁻¹ := by
      rw [← zpow_natCast, ← zpow_neg, ← hk, neg_neg]
    rw [this]
    push_cast
    rw [div_eq_mul_inv]

/-- Numbers with a significand of at most 53 bits. -/
def IsF64 (q : Rat) : Prop := ∃ m s : Int, |m| ≤ 2 ^ 53 ∧ q = m * (2 : Rat) ^ s

theorem rnd_isF64 (q : Rat) : IsF64 (rnd q) := by
  by_cases h : q = 0
  · subst h; exact ⟨0, 0, by norm_num, by simp [rnd]⟩
  · refine ⟨_, _, ?_, rnd_val h⟩
    set s := floorLog2 q - 52 with hs
    have near := roundHalfEven_near (scalePow q s).1 (scalePow_pos q s)
    rw [scalePow_val] at near
    have up := (floorLog2_spec h).2
    have b : |q * (2 : Rat) ^ (-s)| < 2 ^ 53 := by
      rw [abs_mul, abs_of_pos (show (0 : Rat) < (2 : Rat) ^ (-s) by positivity)]
      have e : (2 : Rat) ^ (floorLog2 q + 1) * (2 : Rat) ^ (-s) = 2 ^ 53 := by
        rw [← zpow_add₀ (by norm_num), hs]
        have : floorLog2 q + 1 + -(floorLog2 q - 52) = 53 := by ring
        rw [this]; norm_num
      have p : (0 : Rat) < (2 : Rat) ^ (-s) := by positivity
      nlinarith
    have : |((roundHalfEven (scalePow q s).1 (scalePow q s).2 : Int) : Rat)| < 2 ^ 53 + 1 := by
      have t := abs_sub_abs_le_abs_sub ((roundHalfEven (scalePow q s).1 (scalePow q s).2 : Int) : Rat)
        (q * (2 : Rat) ^ (-s))
      linarith
    have h' : |roundHalfEven (scalePow q s).1 (scalePow q s).2| < 2 ^ 53 + 1 := by exact_mod_cast this
    omega

theorem rnd_exact {q : Rat} (hf : IsF64 q) : rnd q = q := by
  by_cases h : q = 0
  · subst h; simp [rnd]
  rw [rnd_val h]
  set e := floorLog2 q with he
  set S := e - 52 with hS
  obtain ⟨m, s, hm, hq⟩ := hf
  obtain ⟨lo, hi⟩ := floorLog2_spec h
  rw [← he] at lo hi
  -- the scaled number is an integer
  have hint : ∃ k : Int, q * (2 : Rat) ^ (-S) = k := by
    by_cases hsS : S ≤ s
    · obtain ⟨j, hj⟩ := Int.eq_ofNat_of_zero_le (show 0 ≤ s - S by omega)
      refine ⟨m * 2 ^ j, ?_⟩
      rw [hq, mul_assoc, ← zpow_add₀ (by norm_num)]
      have : s + -S = (j : Int) := by omega
      rw [this]; push_cast; simp
    · have habs : |q| = |(m : Rat)| * (2 : Rat) ^ s := by
        rw [hq, abs_mul, abs_of_pos (show (0 : Rat) < (2 : Rat) ^ s by positivity)]
      have hmQ : |(m : Rat)| ≤ 2 ^ 53 := by exact_mod_cast hm
      have p : (0 : Rat) < (2 : Rat) ^ s := by positivity
      have lo' : (2 : Rat) ^ (s + 53) ≤ (2 : Rat) ^ e := by
        apply zpow_le_zpow_right₀ (by norm_num); omega
      have e53 : (2 : Rat) ^ (s + 53) = (2 : Rat) ^ s * 2 ^ 53 := by
        rw [zpow_add₀ (by norm_num)]; norm_num
      have hm' : |(m : Rat)| = 2 ^ 53 := by
        apply le_antisymm hmQ
        by_contra hc
        push Not at hc
        have : |(m : Rat)| * (2 : Rat) ^ s < 2 ^ 53 * (2 : Rat) ^ s := by
          exact mul_lt_mul_of_pos_right hc p
        linarith [this, lo, lo', habs]
      have hle : (2 : Rat) ^ e ≤ (2 : Rat) ^ (s + 53) := by
        rw [e53, mul_comm, ← hm', ← habs]; exact lo
      have hle' : e ≤ s + 53 := (zpow_le_zpow_iff_right₀ (by norm_num : (1 : Rat) < 2)).1 hle
      have hes : S = s + 1 := by omega
      have hmI : |m| = 2 ^ 53 := by exact_mod_cast hm'
      have half : (2 : Rat) ^ s * (2 : Rat) ^ (-S) = 1 / 2 := by
        rw [← zpow_add₀ (by norm_num), hes]
        have : s + -(s + 1) = -1 := by ring
        rw [this]; norm_num
      rcases abs_eq (show (0 : Int) ≤ 2 ^ 53 by norm_num) |>.1 hmI with h1 | h1
      · exact ⟨2 ^ 52, by rw [hq, mul_assoc, half, h1]; norm_num⟩
      · exact ⟨-2 ^ 52, by rw [hq, mul_assoc, half, h1]; norm_num⟩
  obtain ⟨k, hk⟩ := hint
  have hv := scalePow_val q S
  rw [hk] at hv
  have hp := scalePow_pos q S
  have hP : ((scalePow q S).2 : Rat) ≠ 0 := by exact_mod_cast hp.ne'
  rw [div_eq_iff hP] at hv
  have hvI : (scalePow q S).1 = k * (scalePow q S).2 := by exact_mod_cast hv
  rw [hvI, roundHalfEven_exact k hp, ← hk, mul_assoc, ← zpow_add₀ (by norm_num)]
  simp

theorem rnd_rnd (q : Rat) : rnd (rnd q) = rnd q := rnd_exact (rnd_isF64 q)

theorem IsF64.neg {q : Rat} (h : IsF64 q) : IsF64 (-q) := by
  obtain ⟨m, s, hm, rfl⟩ := h
  exact ⟨-m, s, by simpa using hm, by push_cast; ring⟩

theorem IsF64.int {n : Int} (h : |n| ≤ 2 ^ 53) : IsF64 n := ⟨n, 0, h, by simp⟩


theorem roundHalfEven_nearest (n : Int) {d : Nat} (hd : 0 < d) (k : Int) :
    |((roundHalfEven n d : Int) : Rat) - (n : Rat) / d| ≤ |(k : Rat) - (n : Rat) / d| := by
  have h := roundHalfEven_near n hd
  by_cases hk : k = roundHalfEven n d
  · rw [hk]
  · have h1 : (1 : Rat) ≤ |(k : Rat) - (roundHalfEven n d : Int)| := by
      have : (1 : Int) ≤ |k - roundHalfEven n d| := by
        exact Int.one_le_abs (by omega)
      have h2 : ((1 : Int) : Rat) ≤ ((|k - roundHalfEven n d| : Int) : Rat) := by exact_mod_cast this
      simpa using h2
    have t := abs_sub_le (k : Rat) ((n : Rat) / d) ((roundHalfEven n d : Int) : Rat)
    rw [abs_sub_comm ((n : Rat) / d)] at t
    linarith

/-- No number with a 53-bit significand is closer to `q` than `rnd q`. -/
theorem rnd_closest (q : Rat) {f : Rat} (hf : IsF64 f) : |rnd q - q| ≤ |f - q| := by
  by_cases h : q = 0
  · subst h; simp [rnd]
  obtain ⟨lo, hi⟩ := floorLog2_spec h
  rw [rnd_val h]
  set e := floorLog2 q with he
  set S := e - 52 with hS
  have pS : (0 : Rat) < (2 : Rat) ^ S := by positivity
  have hv := scalePow_val q S
  have hp := scalePow_pos q S
  set x := q * (2 : Rat) ^ (-S) with hx
  have hqx : q = x * (2 : Rat) ^ S := by
    rw [hx, mul_assoc, ← zpow_add₀ (by norm_num)]; simp
  have near := fun k => roundHalfEven_nearest (scalePow q S).1 hp k
  rw [hv] at near
  set r : Int := roundHalfEven (scalePow q S).1 (scalePow q S).2 with hr
  have e1 : |(r : Rat) * (2 : Rat) ^ S - q| = |(r : Rat) - x| * (2 : Rat) ^ S := by
    rw [hqx, ← sub_mul, abs_mul, abs_of_pos pS]
  rw [e1]
  obtain ⟨m, s, hm, hfm⟩ := hf
  by_cases hsS : S ≤ s
  · obtain ⟨j, hj⟩ := Int.eq_ofNat_of_zero_le (show 0 ≤ s - S by omega)
    have hfk : f = ((m * 2 ^ j : Int) : Rat) * (2 : Rat) ^ S := by
      rw [hfm]
      have : s = (j : Int) + S := by omega
      rw [this, zpow_add₀ (by norm_num)]; push_cast; rw [zpow_natCast]; ring
    have e2 : |f - q| = |((m * 2 ^ j : Int) : Rat) - x| * (2 : Rat) ^ S := by
      rw [hfk, hqx, ← sub_mul, abs_mul, abs_of_pos pS]
    rw [e2]
    exact mul_le_mul_of_nonneg_right (near _) pS.le
  · -- the number is at most `2^e` in absolute value
    have hfa : |f| ≤ (2 : Rat) ^ e := by
      have hmQ : |(m : Rat)| ≤ 2 ^ 53 := by exact_mod_cast hm
      have e53 : (2 : Rat) ^ (s + 53) = (2 : Rat) ^ s * 2 ^ 53 := by
        rw [zpow_add₀ (by norm_num)]; norm_num
      have lo' : (2 : Rat) ^ (s + 53) ≤ (2 : Rat) ^ e := by
        apply zpow_le_zpow_right₀ (by norm_num); omega
      have ps : (0 : Rat) < (2 : Rat) ^ s := by positivity
      rw [hfm, abs_mul, abs_of_pos ps]
      nlinarith
    have e2 : (2 : Rat) ^ e = 2 ^ 52 * (2 : Rat) ^ S := by
      have : e = 52 + S := by omega
      rw [this, zpow_add₀ (by norm_num)]; norm_num
    have g : |q| - (2 : Rat) ^ e ≤ |f - q| := by
      have := abs_sub_abs_le_abs_sub q f
      rw [abs_sub_comm f q]; linarith
    have hxa : |q| = |x| * (2 : Rat) ^ S := by rw [hqx, abs_mul, abs_of_pos pS]
    have hx52 : (2 : Rat) ^ 52 ≤ |x| := by
      rw [hxa, e2] at lo
      exact le_of_mul_le_mul_right lo pS
    have c : |(r : Rat) - x| ≤ |x| - 2 ^ 52 := by
      by_cases hx0 : 0 ≤ x
      · have := near (2 ^ 52)
        rw [abs_of_nonneg hx0] at hx52 ⊢
        rw [abs_of_nonpos (a := (((2 : Int) ^ 52 : Int) : Rat) - x) (by push_cast; linarith)] at this
        push_cast at this; linarith
      · have := near (-2 ^ 52)
        rw [abs_of_neg (not_le.1 hx0)] at hx52 ⊢
        rw [abs_of_nonneg (a := ((-(2 : Int) ^ 52 : Int) : Rat) - x) (by push_cast; linarith)] at this
        push_cast at this; linarith
    have : |(r : Rat) - x| * (2 : Rat) ^ S ≤ (|x| - 2 ^ 52) * (2 : Rat) ^ S :=
      mul_le_mul_of_nonneg_right c pS.le
    rw [sub_mul, ← hxa, ← e2] at this
    linarith

theorem roundHalfEven_neg (n : Int) {d : Nat} (hd : 0 < d) : roundHalfEven (-n) d = -roundHalfEven n d := by
  have h1 := Int.emod_add_mul_ediv n d
  have h2 := Int.emod_nonneg n (show (d : Int) ≠ 0 by omega)
  have h3 := Int.emod_lt_of_pos n (show (0 : Int) < d by omega)
  by_cases h0 : n % (d : Int) = 0
  · have e1 : n = (n / (d : Int)) * d := by rw [mul_comm]; omega
    rw [e1, ← neg_mul, roundHalfEven_exact _ hd, roundHalfEven_exact _ hd]
  · have hdvd : ¬ ((d : Int) ∣ n) := fun h => h0 (Int.emod_eq_zero_of_dvd h)
    have q' : (-n) / (d : Int) = -(n / (d : Int)) - 1 := by
      rw [Int.neg_ediv, if_neg hdvd, Int.sign_eq_one_of_pos (by omega)]
    have r' : (-n) % (d : Int) = d - n % (d : Int) := by
      have := Int.emod_add_mul_ediv (-n) d
      rw [q'] at this
      have e : (d : Int) * (-(n / (d : Int)) - 1) = -((d : Int) * (n / (d : Int))) - d := by ring
      rw [e] at this
      omega
    unfold roundHalfEven
    simp only [q', r']
    split_ifs <;> omega

theorem floorLog2_neg (q : Rat) : floorLog2 (-q) = floorLog2 q := by
  unfold floorLog2 scalePow
  simp only [Rat.num_neg_eq_neg_num, Rat.den_neg_eq_den, Int.natAbs_neg, neg_mul]
  split_ifs <;> simp_all <;> omega

theorem scalePow_neg (q : Rat) (s : Int) : scalePow (-q) s = (-(scalePow q s).1, (scalePow q s).2) := by
  unfold scalePow
  simp only [Rat.num_neg_eq_neg_num, Rat.den_neg_eq_den, neg_mul]
  split <;> rfl

theorem rnd_neg (q : Rat) : rnd (-q) = -rnd q := by
  by_cases h : q = 0
  · subst h; simp [rnd]
  · rw [rnd_val h, rnd_val (neg_ne_zero.2 h), floorLog2_neg, scalePow_neg]
    simp only
    rw [roundHalfEven_neg _ (scalePow_pos q _)]
    push_cast; ring



theorem IsF64.zero : IsF64 0 := by simpa using IsF64.int (n := 0) (by norm_num)
theorem IsF64.one : IsF64 1 := by simpa using IsF64.int (n := 1) (by norm_num)
theorem IsF64.neg_one : IsF64 (-1) := IsF64.one.neg
theorem IsF64.fmul (a b : Rat) : IsF64 (fmul a b) := rnd_isF64 _
theorem IsF64.fadd (a b : Rat) : IsF64 (fadd a b) := rnd_isF64 _
theorem IsF64.fsub (a b : Rat) : IsF64 (fsub a b) := rnd_isF64 _
theorem IsF64.fdiv (a b : Rat) : IsF64 (fdiv a b) := rnd_isF64 _

theorem fmul_zero_left (x : Rat) : fmul 0 x = 0 := by simp [fmul, rnd]
theorem fmul_zero_right (x : Rat) : fmul x 0 = 0 := by simp [fmul, rnd]
theorem fmul_one_left {x : Rat} (h : IsF64 x) : fmul 1 x = x := by simp [fmul, rnd_exact h]
theorem fmul_one_right {x : Rat} (h : IsF64 x) : fmul x 1 = x := by simp [fmul, rnd_exact h]
theorem fmul_neg_one_left {x : Rat} (h : IsF64 x) : fmul (-1) x = -x := by simp [fmul, rnd_neg, rnd_exact h]
theorem fmul_neg_one_right {x : Rat} (h : IsF64 x) : fmul x (-1) = -x := by simp [fmul, rnd_neg, rnd_exact h]
theorem fadd_zero_left {x : Rat} (h : IsF64 x) : fadd 0 x = x := by simp [fadd, rnd_exact h]
theorem fadd_zero_right {x : Rat} (h : IsF64 x) : fadd x 0 = x := by simp [fadd, rnd_exact h]
theorem fsub_zero_left {x : Rat} (h : IsF64 x) : fsub 0 x = -x := by simp [fsub, rnd_neg, rnd_exact h]
theorem fsub_zero_right {x : Rat} (h : IsF64 x) : fsub x 0 = x := by simp [fsub, rnd_exact h]
theorem fdiv_one {x : Rat} (h : IsF64 x) : fdiv x 1 = x := by simp [fdiv, rnd_exact h]
theorem fdiv_neg_one {x : Rat} (h : IsF64 x) : fdiv x (-1) = -x := by simp [fdiv, rnd_neg, rnd_exact h, div_neg]
theorem toI32_zero : toI32 0 = 0 := by decide
theorem toI32_one : toI32 1 = 1 := by decide
theorem toI32_neg_one : toI32 (-1) = -1 := by decide

end Verif
