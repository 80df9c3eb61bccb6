import Verif.Props.Operations

/-!
# Powers, and the contracts between `==`, `Hash`, `PartialOrd`, `Ord` (C06, C07, C08, C12)
-/

namespace Verif

/-! ## Powers with non-negative exponent -/

theorem M4.mulRaw_assoc (a b c : M4) : (a.mulRaw b).mulRaw c = a.mulRaw (b.mulRaw c) := by
  ext <;> simp only [M4.mulRaw, M3.add, M3.mul, M3.outer, V3.add, V3.smul, M3.mulVec, M3.vecMul, V3.dot] <;> ring

theorem M4.one_mulRaw (a : M4) : M4.one.mulRaw a = a := by
  ext <;> simp [M4.one, M4.mulRaw, M3.add, M3.mul, M3.outer, V3.add, V3.smul, M3.mulVec, M3.vecMul, V3.dot,
    M3.one, V3.zero]

theorem M4.mulRaw_one (a : M4) : a.mulRaw M4.one = a := by
  ext <;> simp [M4.one, M4.mulRaw, M3.add, M3.mul, M3.outer, V3.add, V3.smul, M3.mulVec, M3.vecMul, V3.dot,
    M3.one, V3.zero]

theorem M4.powNat_succ (m : M4) (k : Nat) : m.powNat (k + 1) = (m.powNat k).mulRaw m := by
  cases k with
  | zero => simp only [M4.powNat, M4.powLoop, M4.one_mulRaw]
  | succ k => rfl

theorem M4.powNat_add (m : M4) (a b : Nat) : m.powNat (a + b) = (m.powNat a).mulRaw (m.powNat b) := by
  induction b with
  | zero => simp only [M4.powNat, M4.mulRaw_one, Nat.add_zero]
  | succ b ih => rw [← Nat.add_assoc, M4.powNat_succ, ih, M4.mulRaw_assoc, ← M4.powNat_succ]

theorem M4.eqv_mulRaw_mul (a b : M4) : M4.eqv (a.mulRaw b) (a.mul b) = true :=
  M4.eqv_iff.2 ⟨rfl, (V3.cong_map_tmod _).symm⟩

theorem M4.Affine.mulRaw {a b : M4} (ha : a.Affine) (hb : b.Affine) : (a.mulRaw b).Affine := ha.mul hb

theorem M4.Affine.powNat {m : M4} (h : m.Affine) (k : Nat) : (m.powNat k).Affine := by
  induction k with
  | zero => exact ⟨rfl, rfl⟩
  | succ k ih => rw [M4.powNat_succ]; exact ih.mulRaw h

/-- C06. `powi(0)` is the identity matrix, `powi(1)` is `m`, and `powi(a+b) == powi(a) * powi(b)`. -/
theorem powi_exponent_laws (m : M4) (a b : Nat) :
    m.powNat 0 = M4.identity ∧ m.powNat 1 = m ∧
      M4.eqv (m.powNat (a + b)) ((m.powNat a).mul (m.powNat b)) = true :=
  ⟨rfl, rfl, by rw [M4.powNat_add]; exact M4.eqv_mulRaw_mul _ _⟩

/-- C06. `powi(k)` acts on points exactly as `k` applications of `m`. -/
theorem powi_is_iteration (m : M4) (h : m.Affine) (k : Nat) (p : Pt) :
    (m.powNat k).act p = (m.act)^[k] p := by
  induction k generalizing p with
  | zero => exact identity_inversion_meaning.1 p
  | succ k ih =>
    rw [M4.powNat_succ, Function.iterate_succ_apply, ← ih, M4.act_act]
    obtain ⟨h1, h2⟩ := h
    refine M4.act_congr_rot_tr ?_ ?_ p
    · ext <;> simp [M4.mulRaw, M3.add, M3.outer, h1]
    · ext <;> simp [M4.mulRaw, V3.add, V3.smul, h2]

/-- C06. `powi(a*b)` is `powi(b)` of `powi(a)`. -/
theorem powi_mul (m : M4) (a b : Nat) : m.powNat (a * b) = (m.powNat a).powNat b := by
  induction b with
  | zero => rfl
  | succ b ih => rw [Nat.mul_succ, M4.powNat_add, ih, ← M4.powNat_succ]

example : sampleA.powNat 4 = { M4.identity with tr := ⟨0, 0, -28⟩ } ∧
    M4.eqv (sampleA.powNat 4) M4.identity = false ∧ M4.eqv (sampleA.powNat 12) M4.identity = true := by
  decide +kernel

/-! ## Hash and comparison -/

/-- The translation components lie in `0..12`, the form in which general positions are stored (see C33). -/
def M4.Reduced (m : M4) : Prop :=
  (0 ≤ m.tr.x ∧ m.tr.x < 12) ∧ (0 ≤ m.tr.y ∧ m.tr.y < 12) ∧ (0 ≤ m.tr.z ∧ m.tr.z < 12)

/-- Equal operations in reduced affine form are the same sixteen numbers. -/
theorem M4.eq_of_eqv_reduced {a b : M4} (ha : a.Affine) (hb : b.Affine) (ra : a.Reduced) (rb : b.Reduced)
    (h : M4.eqv a b = true) : a = b := by
  obtain ⟨h1, h2, h3, h4⟩ := M4.eqv_iff.1 h
  obtain ⟨⟨_, _⟩, ⟨_, _⟩, ⟨_, _⟩⟩ := ra
  obtain ⟨⟨_, _⟩, ⟨_, _⟩, ⟨_, _⟩⟩ := rb
  have ht : a.tr = b.tr := V3.ext (by omega) (by omega) (by omega)
  exact M4.ext h1 ht (ha.1.trans hb.1.symm) (ha.2.trans hb.2.symm)

theorem M4.hashData_inj {a b : M4} (h : a.hashData = b.hashData) : a = b := by
  simp only [M4.hashData, List.cons.injEq, and_true] at h
  obtain ⟨h1, h2, h3, h4, h5, h6, h7, h8, h9, h10, h11, h12, h13, h14, h15, h16⟩ := h
  exact M4.ext (M3.ext h1 h5 h9 h2 h6 h10 h3 h7 h11) (V3.ext h13 h14 h15) (V3.ext h4 h8 h12) h16

/-- C07, the part that holds: on reduced operations `==` and equal hash input coincide. Missing from the full claim:
operations with unreduced translations, where it fails (`eq_hash_disagree`). -/
theorem eq_hash_agree_partial (a b : M4) (ha : a.Affine) (hb : b.Affine) (ra : a.Reduced) (rb : b.Reduced) :
    M4.eqv a b = true ↔ a.hashData = b.hashData := by
  constructor
  · intro h; rw [M4.eq_of_eqv_reduced ha hb ra rb h]
  · intro h; rw [M4.hashData_inj h]; exact eq_equivalence.refl b

/-- C07 is false in general: every operation is `==` to one with different hash input, and such pairs arise inside the
API: a product that gives the identity carries `-12 < t ≤ 0` or `0 ≤ t < 12` depending on the factors. -/
theorem eq_hash_disagree :
    (∀ a : M4, ∃ b : M4, M4.eqv a b = true ∧ a.hashData ≠ b.hashData) ∧
    (∃ a b : M4, a.Affine ∧ b.Affine ∧ M4.eqv (a.mul b) a = true ∧ a.Reduced ∧
      (a.mul b).hashData ≠ a.hashData) := by
  constructor
  · intro a
    refine ⟨{ a with tr := ⟨a.tr.x + 12, a.tr.y, a.tr.z⟩ }, M4.eqv_iff.2 ⟨rfl, ?_⟩, fun h => ?_⟩
    · refine ⟨⟨-1, by simp⟩, ⟨0, by simp⟩, ⟨0, by simp⟩⟩
    · have := congrArg (fun m : M4 => m.tr.x) (M4.hashData_inj h)
      simp at this
  · refine ⟨⟨⟨-1, 0, 0, 0, -1, 0, 0, 0, 1⟩, ⟨3, 0, 0⟩, ⟨0, 0, 0⟩, 1⟩,
      ⟨⟨1, 0, 0, 0, 1, 0, 0, 0, 1⟩, ⟨12, 0, 0⟩, ⟨0, 0, 0⟩, 1⟩, ⟨rfl, rfl⟩, ⟨rfl, rfl⟩, ?_, ?_, ?_⟩
    · decide +kernel
    · exact ⟨⟨by decide, by decide⟩, ⟨by decide, by decide⟩, ⟨by decide, by decide⟩⟩
    · decide +kernel

theorem M4.partialCmpLoop_eq (acc : Ordering) (l : List (Int × Int)) :
    M4.partialCmpLoop acc l = some .eq ↔ acc = .eq ∧ ∀ p ∈ l, p.1 = p.2 := by
  induction l generalizing acc with
  | nil => simp [M4.partialCmpLoop]
  | cons p rest ih =>
    obtain ⟨l, r⟩ := p
    simp only [M4.partialCmpLoop]
    rcases lt_trichotomy l r with h | h | h
    · have : compare l r = .lt := compare_lt_iff_lt.2 h
      rw [this]
      simp only []
      split
      · simp; intro _ h'; omega
      · rw [ih]; simp; intro _ h'; omega
    · have : compare l r = .eq := compare_eq_iff_eq.2 h
      rw [this]; simp only []
      rw [ih]; simp [h]
    · have : compare l r = .gt := compare_gt_iff_gt.2 h
      rw [this]
      simp only []
      split
      · simp; intro _ h'; omega
      · rw [ih]; simp; intro _ h'; omega

/-- The comparison says "equal" exactly when all sixteen entries are equal. -/
theorem M4.partialCmp_eq_iff (a b : M4) : M4.partialCmp a b = some .eq ↔ a = b := by
  constructor
  · intro h
    simp only [M4.partialCmp, M4.hashData, List.zip_cons_cons, List.zip_nil_right, M4.partialCmpLoop_eq,
      compare_eq_iff_eq, List.mem_cons, forall_eq_or_imp, List.not_mem_nil, false_imp_iff, implies_true, and_true]
      at h
    apply M4.hashData_inj
    simp only [M4.hashData, List.cons.injEq, and_true]
    exact h
  · rintro rfl
    simp [M4.partialCmp, M4.hashData, M4.partialCmpLoop_eq]

/-- C08, the part that holds: "compares Equal" implies `==` for all operations, and on reduced operations the two
coincide. Missing from the full claim: unreduced translations, where it fails (`cmp_eq_disagree`). -/
theorem cmp_eq_agree_partial (a b : M4) :
    (M4.partialCmp a b = some .eq → M4.eqv a b = true) ∧
    (a.Affine → b.Affine → a.Reduced → b.Reduced → (M4.partialCmp a b = some .eq ↔ M4.eqv a b = true)) := by
  refine ⟨fun h => ?_, fun ha hb ra rb => ⟨fun h => ?_, fun h => ?_⟩⟩
  · rw [(M4.partialCmp_eq_iff a b).1 h]; exact eq_equivalence.refl b
  · rw [(M4.partialCmp_eq_iff a b).1 h]; exact eq_equivalence.refl b
  · exact (M4.partialCmp_eq_iff a b).2 (M4.eq_of_eqv_reduced ha hb ra rb h)

/-- C08 is false in general: every operation is `==` to one that does not compare `Equal` to it. -/
theorem cmp_eq_disagree : ∀ a : M4, ∃ b : M4, M4.eqv a b = true ∧ M4.partialCmp a b = some .lt := by
  intro a
  refine ⟨{ a with tr := ⟨a.tr.x + 12, a.tr.y, a.tr.z⟩ }, M4.eqv_iff.2 ⟨rfl, ?_⟩, ?_⟩
  · refine ⟨⟨-1, by simp⟩, ⟨0, by simp⟩, ⟨0, by simp⟩⟩
  · have h : compare a.tr.x (a.tr.x + 12) = .lt := compare_lt_iff_lt.2 (by omega)
    simp [M4.partialCmp, M4.hashData, M4.partialCmpLoop, h]

/-- All components are above -12 and below 12: the range every product and every sum has (C04). -/
def M4.InRange (m : M4) : Prop :=
  (-12 < m.tr.x ∧ m.tr.x < 12) ∧ (-12 < m.tr.y ∧ m.tr.y < 12) ∧ (-12 < m.tr.z ∧ m.tr.z < 12)

/-- C07 and C08, exactly, on the operations that products and sums give: two equal operations feed the same numbers to the
hasher, and compare `Equal`, exactly when corresponding translation components have the same sign. -/
theorem eq_hash_exact (a b : M4) (ha : a.Affine) (hb : b.Affine) (ra : a.InRange) (rb : b.InRange)
    (h : M4.eqv a b = true) :
    (a.hashData = b.hashData ↔ (a.tr.x < 0 ↔ b.tr.x < 0) ∧ (a.tr.y < 0 ↔ b.tr.y < 0) ∧ (a.tr.z < 0 ↔ b.tr.z < 0)) ∧
    (M4.partialCmp a b = some .eq ↔ a.hashData = b.hashData) := by
  refine ⟨⟨fun e => ?_, fun e => ?_⟩, ⟨fun e => ?_, fun e => ?_⟩⟩
  · rw [M4.hashData_inj e]; exact ⟨Iff.rfl, Iff.rfl, Iff.rfl⟩
  · obtain ⟨h1, h2, h3, h4⟩ := M4.eqv_iff.1 h
    obtain ⟨⟨_, _⟩, ⟨_, _⟩, ⟨_, _⟩⟩ := ra
    obtain ⟨⟨_, _⟩, ⟨_, _⟩, ⟨_, _⟩⟩ := rb
    obtain ⟨e1, e2, e3⟩ := e
    have ht : a.tr = b.tr := V3.ext (by omega) (by omega) (by omega)
    rw [M4.ext h1 ht (ha.1.trans hb.1.symm) (ha.2.trans hb.2.symm)]
  · rw [(M4.partialCmp_eq_iff a b).1 e]
  · exact (M4.partialCmp_eq_iff a b).2 (M4.hashData_inj e)

/-- Both cases occur among products: half a cell forward and half a cell back. -/
example : M4.InRange { M4.identity with tr := ⟨6, 0, 0⟩ } ∧ M4.InRange { M4.identity with tr := ⟨-6, 0, 0⟩ } ∧
    M4.eqv { M4.identity with tr := ⟨6, 0, 0⟩ } { M4.identity with tr := ⟨-6, 0, 0⟩ } = true :=
  ⟨⟨⟨by decide, by decide⟩, ⟨by decide, by decide⟩, ⟨by decide, by decide⟩⟩,
    ⟨⟨by decide, by decide⟩, ⟨by decide, by decide⟩, ⟨by decide, by decide⟩⟩, by decide +kernel⟩

/-- Two distinct reduced operations satisfying the hypotheses of C07/C08. -/
example : sampleA.Affine ∧ M4.Reduced { sampleA with tr := ⟨3, 5, 5⟩ } ∧
    M4.eqv sampleA { sampleA with tr := ⟨3, 5, 5⟩ } = true := by
  refine ⟨⟨rfl, rfl⟩, ⟨⟨by decide, by decide⟩, ⟨by decide, by decide⟩, ⟨by decide, by decide⟩⟩, by decide +kernel⟩

/-! ## `Ord` of rotation types -/

/-- The ten rotation types. -/
def RotationType.all : List RotationType := [.E, .N2, .N3, .N4, .N6, .I, .M, .M3, .M4, .M6]

theorem RotationType.mem_all (t : RotationType) : t ∈ RotationType.all := by cases t <;> decide

/-- C12, the part that holds: `cmp` is reflexive and says `Equal` only for equal types, and `E` is the least type.
Missing: antisymmetry and transitivity, which fail (`rotation_type_order_broken`). -/
theorem rotation_type_order_partial (a b : RotationType) :
    (RotationType.cmp a b = .eq ↔ a = b) ∧ (b ≠ .E → RotationType.cmp .E b = .lt ∧ RotationType.cmp b .E = .gt) := by
  cases a <;> cases b <;> decide

/-- Antisymmetry fails exactly for these pairs: 2 against 4, 6, -3, -4, -6; 3 against all others but 1 and 2; 6 against -6. -/
def RotationType.brokenPairs : List (RotationType × RotationType) :=
  [(.N2, .N4), (.N2, .N6), (.N2, .M3), (.N2, .M4), (.N2, .M6), (.N3, .N4), (.N3, .N6), (.N3, .I), (.N3, .M), (.N3, .M3),
    (.N3, .M4), (.N3, .M6), (.N6, .M6)]

/-- C12, exactly: two types are ordered consistently exactly when they are none of thirteen pairs; with 2, 3 and one of 6
and -6 left out, `cmp` is a total order (antisymmetric, transitive). -/
theorem rotation_type_order_exact :
    (∀ a b, RotationType.cmp a b = (RotationType.cmp b a).swap ↔
      (a, b) ∉ RotationType.brokenPairs ∧ (b, a) ∉ RotationType.brokenPairs) ∧
    ∀ x, x = RotationType.N6 ∨ x = RotationType.M6 → ∀ a b c, a ∉ [.N2, .N3, x] → b ∉ [.N2, .N3, x] → c ∉ [.N2, .N3, x] →
      RotationType.cmp a b = (RotationType.cmp b a).swap ∧
      (RotationType.cmp a b = .lt → RotationType.cmp b c = .lt → RotationType.cmp a c = .lt) := by
  refine ⟨fun a b => ?_, ?_⟩
  · cases a <;> cases b <;> decide
  · rintro x (rfl | rfl) a b c <;> cases a <;> cases b <;> cases c <;> decide

/-- C12 is false: `N3 < N4` and `N4 < N3` both hold, and the relation `<` has a cycle of three types, so `cmp` is not a
total order. -/
theorem rotation_type_order_broken :
    (RotationType.cmp .N3 .N4 = .lt ∧ RotationType.cmp .N4 .N3 = .lt) ∧
    (∃ a b c, RotationType.cmp a b = .lt ∧ RotationType.cmp b c = .lt ∧ RotationType.cmp a c = .gt) ∧
    ¬ (∀ a b, RotationType.cmp a b = (RotationType.cmp b a).swap) := by
  refine ⟨by decide, ?_, ?_⟩
  · exact ⟨.N3, .N4, .M3, by decide⟩
  · intro h; exact absurd (h .N3 .N4) (by decide)

example : RotationType.cmp .N2 .N6 = .lt ∧ RotationType.cmp .N6 .N2 = .lt := by decide

end Verif
