import Verif.Props.Inverse

/-! # Powers with negative exponents (C06) -/

namespace Verif

/-- Every power of an operation whose exact inverse is returned, as a power of its permutation of space. -/
theorem powi_perm_of_inverse (m : M4) (ha : m.Affine) (hu : m.rot.Unimod) (hi : m.tryInverse = some m.uinv) (k : Int) :
    ∃ z, m.powi k = .ok z ∧ z.Affine ∧ ∀ p, z.act p = (m.perm hu ^ k) p := by
  cases k with
  | ofNat k =>
    refine ⟨_, rfl, ha.powNat k, fun p => ?_⟩
    rw [powi_is_iteration m ha, Int.ofNat_eq_natCast, zpow_natCast, M4.perm_pow]
  | negSucc k =>
    have hv : m.uinv.Affine := ⟨rfl, rfl⟩
    refine ⟨m.uinv.powLoop k, by simp only [M4.powi, hi], hv.powNat (k + 1), fun p => ?_⟩
    rw [M4.powLoop_eq, powi_is_iteration _ hv, zpow_negSucc, ← inv_pow, ← Equiv.Perm.iterate_eq_pow]
    rfl

/-- Where `try_inverse` of a hexagonal operation is right up to whole cells it is exactly right. -/
theorem hex_inverse_exact (m : M4) (ha : m.Affine) (hR : m.rot.Hexagonal) (ht : m.tr.Small) {n : M4}
    (hn : m.tryInverse = some n) (h : M4.eqv (n.mul m) M4.identity = true) : n = m.uinv := by
  obtain ⟨n', hn', -, -, -, hl, -⟩ := try_inverse_hexagonal m ha hR ht
  rw [hn] at hn'
  obtain rfl := Option.some.inj hn'
  obtain ⟨l1, l2⟩ := hl.1 h
  have he := tryInverse_hex m.rot hR m.tr ht
  rw [← ha.eta, hn] at he
  obtain rfl := Option.some.inj he
  obtain ⟨h11, h12, h21, h22, h13, h23, h31, h32⟩ := hex_uinv_entries hR
  obtain ⟨hx, hy, hz⟩ := ht
  have s1 := floatSum_neg (small_mul h11 hx) (small_mul h12 hy)
  have s2 := floatSum_neg (small_mul h21 hx) (small_mul h22 hy)
  rw [if_neg l1] at s1
  rw [if_neg l2] at s2
  simp only [M4.uinv, s1, s2, M3.mulVec, V3.neg, h13, h23, h31, h32, zero_mul, add_zero, zero_add]

/-- C06. For an operation of the hexagonal cell with reduced translation: the exponent laws hold for all integer exponents,
negative ones included, exactly when `try_inverse` returns the inverse (the exact condition for that is
`try_inverse_hexagonal`). -/
theorem powi_laws_hexagonal (m : M4) (ha : m.Affine) (hR : m.rot.Hexagonal) (ht : m.tr.Small) :
    (∀ a b : Int, ∃ x y z, m.powi a = .ok x ∧ m.powi b = .ok y ∧ m.powi (a + b) = .ok z ∧ M4.eqv z (x.mul y) = true) ↔
      ∃ n, m.tryInverse = some n ∧ M4.eqv (n.mul m) M4.identity = true := by
  constructor
  · intro h
    obtain ⟨x, y, z, hx, hy, hz, e⟩ := h (-1) 1
    have hy' : y = m := (Except.ok.inj ((show m.powi 1 = .ok m from rfl).symm.trans hy)).symm
    have hz' : z = M4.identity := (Except.ok.inj ((show m.powi (-1 + 1) = .ok M4.identity from rfl).symm.trans hz)).symm
    subst hy' hz'
    have hx' : (match y.tryInverse with | some inv => Except.ok (inv.powLoop 0) | none => .error Panic.noInverse) = .ok x := hx
    cases hi : y.tryInverse with
    | none => rw [hi] at hx'; cases hx'
    | some n =>
      rw [hi] at hx'
      obtain rfl := Except.ok.inj hx'
      exact ⟨n, rfl, eq_equivalence.symm e⟩
  · rintro ⟨n, hn, h⟩ a b
    obtain rfl := hex_inverse_exact m ha hR ht hn h
    obtain ⟨x, hx, ax, ex⟩ := powi_perm_of_inverse m ha hR.unimod hn a
    obtain ⟨y, hy, ay, ey⟩ := powi_perm_of_inverse m ha hR.unimod hn b
    obtain ⟨z, hz, az, ez⟩ := powi_perm_of_inverse m ha hR.unimod hn (a + b)
    refine ⟨x, y, z, hx, hy, hz, ?_⟩
    have c1 : ∀ p, z.act p = x.act (y.act p) := fun p => by
      rw [ez, ex, ey, zpow_add]; rfl
    rw [eq_iff_same_operation]
    obtain ⟨k, hk⟩ := mul_is_composition x y ay
    refine ⟨k.neg, fun p => ?_⟩
    rw [hk p, c1 p]
    ext <;> simp [Pt.addCell, V3.neg]

/-- Both sides occur: a sixfold screw operation, and a threefold operation whose inverse is wrong. -/
example : (∃ n, M4.tryInverse ⟨⟨1, -1, 0, 1, 0, 0, 0, 0, 1⟩, ⟨0, 0, 2⟩, V3.zero, 1⟩ = some n ∧
      M4.eqv (n.mul ⟨⟨1, -1, 0, 1, 0, 0, 0, 0, 1⟩, ⟨0, 0, 2⟩, V3.zero, 1⟩) M4.identity = true) ∧
    ¬ (∃ n, M4.tryInverse ⟨⟨-1, 1, 0, -1, 0, 0, 0, 0, 1⟩, ⟨5, 6, 3⟩, V3.zero, 1⟩ = some n ∧
      M4.eqv (n.mul ⟨⟨-1, 1, 0, -1, 0, 0, 0, 0, 1⟩, ⟨5, 6, 3⟩, V3.zero, 1⟩) M4.identity = true) := by
  constructor
  · exact ⟨⟨⟨0, 1, 0, -1, 1, 0, 0, 0, 1⟩, ⟨0, 0, -2⟩, V3.zero, 1⟩, by decide +kernel, by decide⟩
  · rintro ⟨n, h1, h2⟩
    have h3 : M4.tryInverse ⟨⟨-1, 1, 0, -1, 0, 0, 0, 0, 1⟩, ⟨5, 6, 3⟩, V3.zero, 1⟩
        = some ⟨⟨0, -1, 0, 1, -1, 0, 0, 0, 1⟩, ⟨6, 0, -3⟩, ⟨0, 0, 0⟩, 1⟩ := by decide +kernel
    rw [h3] at h1
    obtain rfl := Option.some.inj h1
    revert h2
    decide

end Verif
