import Verif.Spec.Polar
import Verif.Props.Number

/-! # Inversion centres, proper groups and polar directions (C105) -/

namespace Verif

/-! ## The point group -/

theorem hasCentre_iff (n : HallSymbolNotation) : HasCentre n ↔ M3.one.neg ∈ PointGroup n := by
  constructor
  · rintro ⟨f, hf, c, hc⟩
    obtain ⟨m, rfl, -, -⟩ := hf.isOp
    refine ⟨_, hf, m, ?_, rfl⟩
    have e0 := hc ⟨0, 0, 0⟩
    have e1 := hc ⟨1, 0, 0⟩
    have e2 := hc ⟨0, 1, 0⟩
    have e3 := hc ⟨0, 0, 1⟩
    simp only [M4.act, Pt.mk.injEq, mul_zero, add_zero, zero_add, mul_one] at e0 e1 e2 e3
    obtain ⟨a1, a2, a3⟩ := e0
    obtain ⟨b1, b2, b3⟩ := e1
    obtain ⟨c1, c2, c3⟩ := e2
    obtain ⟨d1, d2, d3⟩ := e3
    have q : ∀ {x : Int} {y : Int}, ((x : ℚ) - y = 0) → x = y := fun h => by
      have := sub_eq_zero.1 h; exact_mod_cast this
    apply M3.ext <;> apply q <;> simp only [M3.one, M3.neg] <;> push_cast <;> linarith
  · rintro ⟨f, hf, m, hm, rfl⟩
    refine ⟨_, hf, ⟨m.tr.x / 24, m.tr.y / 24, m.tr.z / 24⟩, fun p => ?_⟩
    simp only [M4.act, hm, M3.one, M3.neg]
    ext <;> push_cast <;> ring

theorem isKind_I {r : M3} : r.IsKind .I ↔ r = M3.one.neg := by
  constructor
  · rintro h
    have h2 := h.2.2.1
    simp only [RotationType.fold] at h2
    have h3 : r.neg = M3.one := by
      rw [← h2]
      simp [M3.pow, M3.mul, M3.neg]
    have := congrArg M3.neg h3
    rw [← this]
    simp [M3.neg]
  · rintro rfl
    refine ⟨by decide, by decide, by decide, fun j h1 h2 => ?_⟩
    simp only [RotationType.fold] at h2
    omega

/-- Counting a kind: none exactly when the number's class has none. -/
theorem kind_count_pos {n : HallSymbolNotation} {g : GeneralPositions} (hg : HasPositions n g) {cc : ClassCounts}
    {t : RotationType} (h : {r ∈ PointGroup n | r.IsKind t}.ncard = cc.get t) :
    (∃ r ∈ PointGroup n, r.IsKind t) ↔ cc.get t ≠ 0 := by
  have hfin : {r ∈ PointGroup n | r.IsKind t}.Finite := (pointGroup_rotations hg).1.finite.subset fun r hr => hr.1
  rw [← h]
  constructor
  · rintro ⟨r, h1, h2⟩ e
    rw [Set.ncard_eq_zero hfin] at e
    have : r ∈ (∅ : Set M3) := e ▸ (⟨h1, h2⟩ : r ∈ {r ∈ PointGroup n | r.IsKind t})
    exact this
  · intro e
    obtain ⟨r, hr⟩ := Set.nonempty_of_ncard_ne_zero e
    exact ⟨r, hr.1, hr.2⟩

theorem number_unique {n : HallSymbolNotation} {g : GeneralPositions} (hg : HasPositions n g) {P : Nat → Prop} {k : Nat}
    (hk : (1 ≤ k ∧ k ≤ 230) ∧ HasTypeNumber n k) (hP : ∀ k, P k → 1 ≤ k ∧ k ≤ 230) :
    (∃ k, P k ∧ HasTypeNumber n k) ↔ P k := by
  constructor
  · rintro ⟨k', h1, h2⟩
    rwa [(one_of_230_types hg).unique hk ⟨hP k' h1, h2⟩]
  · exact fun h => ⟨k, h, hk.2⟩

theorem centric_table : ∀ k < 231, 1 ≤ k → ∃ cc, crystalClass k = some cc ∧
    (cc.get .I ≠ 0 ↔ inRanges k centricNumbers) ∧
    ((∀ t : RotationType, t.improper = true → cc.get t = 0) ↔ inRanges k properNumbers) := by
  have h : (List.range 231).all (fun k => Nat.beq k 0 || match crystalClass k with
      | some cc => decide (cc.get .I ≠ 0 ↔ inRanges k centricNumbers) &&
          decide ((cc.i = 0 ∧ cc.m = 0 ∧ cc.m3 = 0 ∧ cc.m4 = 0 ∧ cc.m6 = 0) ↔ inRanges k properNumbers)
      | none => false) = true := by decide +kernel
  intro k hk h1
  have := List.all_eq_true.1 h k (List.mem_range.2 hk)
  rw [Bool.or_eq_true, Nat.beq_eq] at this
  rcases this with e | this
  · omega
  split at this
  · rename_i cc hcc
    rw [Bool.and_eq_true, decide_eq_true_iff, decide_eq_true_iff] at this
    refine ⟨cc, hcc, this.1, ?_⟩
    rw [← this.2]
    constructor
    · exact fun h => ⟨h .I rfl, h .M rfl, h .M3 rfl, h .M4 rfl, h .M6 rfl⟩
    · rintro ⟨h1, h2, h3, h4, h5⟩ t ht
      cases t <;> first | exact absurd ht (by decide) | assumption
  · cases this

theorem centric_range : ∀ k, inRanges k centricNumbers → 1 ≤ k ∧ k ≤ 230 := by
  rintro k ⟨r, hr, h1, h2⟩
  have : ∀ r ∈ centricNumbers, 1 ≤ r.1 ∧ r.2 ≤ 230 := by decide
  have := this r hr
  omega

theorem proper_range : ∀ k, inRanges k properNumbers → 1 ≤ k ∧ k ≤ 230 := by
  rintro k ⟨r, hr, h1, h2⟩
  have : ∀ r ∈ properNumbers, 1 ≤ r.1 ∧ r.2 ≤ 230 := by decide
  have := this r hr
  omega

theorem polar_range : ∀ k, inRanges k polarNumbers → 1 ≤ k ∧ k ≤ 230 := by
  rintro k ⟨r, hr, h1, h2⟩
  have : ∀ r ∈ polarNumbers, 1 ≤ r.1 ∧ r.2 ≤ 230 := by decide
  have := this r hr
  omega

/-- C105. For every notation with general positions, consistent or not: the group has an inversion centre exactly when its
number is one of the 92. -/
theorem centre_iff_number {n : HallSymbolNotation} {g : GeneralPositions} (hg : HasPositions n g) :
    HasCentre n ↔ ∃ k, inRanges k centricNumbers ∧ HasTypeNumber n k := by
  obtain ⟨k, hk, -⟩ := one_of_230_types hg
  rw [number_unique hg hk centric_range]
  obtain ⟨cc, hcc, hcount⟩ := number_settles_rotations hg hk.2
  obtain ⟨cc', hcc', hc, -⟩ := centric_table k (by omega) hk.1.1
  rw [hcc] at hcc'
  obtain rfl := Option.some.inj hcc'
  rw [← hc, ← kind_count_pos hg (hcount .I), hasCentre_iff]
  constructor
  · exact fun h => ⟨_, h, isKind_I.2 rfl⟩
  · rintro ⟨r, h1, h2⟩
    rwa [← isKind_I.1 h2]

theorem det_neg (r : M3) : r.neg.det = -r.det := by
  simp only [M3.neg, M3.det]; ring

/-- C105. All operations of the group keep the hand exactly when its number is one of the 65. -/
theorem proper_iff_number {n : HallSymbolNotation} {g : GeneralPositions} (hg : HasPositions n g) :
    ProperOnly n ↔ ∃ k, inRanges k properNumbers ∧ HasTypeNumber n k := by
  obtain ⟨k, hk, -⟩ := one_of_230_types hg
  rw [number_unique hg hk proper_range]
  obtain ⟨cc, hcc, hcount⟩ := number_settles_rotations hg hk.2
  obtain ⟨cc', hcc', -, hc⟩ := centric_table k (by omega) hk.1.1
  rw [hcc] at hcc'
  obtain rfl := Option.some.inj hcc'
  rw [← hc]
  constructor
  · intro h t ht
    by_contra e
    obtain ⟨r, h1, h2⟩ := (kind_count_pos hg (hcount t)).2 e
    unfold M3.IsKind at h2
    rw [if_pos ht, det_neg, h r h1] at h2
    exact absurd h2.1 (by decide)
  · intro h r hr
    have hf := fits_finiteOrder (pointGroup_fits_cell hg r hr)
    obtain ⟨t, _, h1, _, h2⟩ := rotation_type_correct ⟨r, V3.zero, V3.zero, 1⟩ ⟨rfl, rfl⟩ hf
    rcases h2 with ⟨-, h2, -⟩ | ⟨h2, -⟩
    · exact h2
    · exact absurd (h t h2) ((kind_count_pos hg (hcount t)).1 ⟨r, hr, (isKind_iff hf t).2 h1⟩)

/-! ## Polar directions -/

theorem SameType.polar_le {n n' : HallSymbolNotation} (h : SameType n n') (hf : Polar n) : Polar n' := by
  obtain ⟨v, hv, hf⟩ := hf
  obtain ⟨a, d, q, hd, ha, h⟩ := h
  obtain ⟨b, e, s, he, hb, h1, h2⟩ := changeOfBasis_inv a d q hd ha
  have add : ∀ p : Pt, changeOfBasis a d q ⟨p.x + v.x, p.y + v.y, p.z + v.z⟩ =
      ⟨(changeOfBasis a d q p).x + (changeOfBasis a d ⟨0, 0, 0⟩ v).x, (changeOfBasis a d q p).y + (changeOfBasis a d ⟨0, 0, 0⟩ v).y,
        (changeOfBasis a d q p).z + (changeOfBasis a d ⟨0, 0, 0⟩ v).z⟩ := by
    intro p
    simp only [changeOfBasis]
    ext <;> simp only [] <;> ring
  refine ⟨changeOfBasis a d ⟨0, 0, 0⟩ v, ?_, ?_⟩
  · intro e0
    apply hv
    have e1 := add ⟨0, 0, 0⟩
    rw [e0] at e1
    have e2 := congrArg (changeOfBasis b e s) e1
    simp only [add_zero, zero_add] at e2
    have r1 := congrFun h2 ⟨v.x, v.y, v.z⟩
    have r2 := congrFun h2 ⟨0, 0, 0⟩
    simp only [Function.comp_apply, id] at r1 r2
    rw [r1] at e2
    rw [show (⟨(changeOfBasis a d q ⟨0, 0, 0⟩).x, (changeOfBasis a d q ⟨0, 0, 0⟩).y, (changeOfBasis a d q ⟨0, 0, 0⟩).z⟩ : Pt)
      = changeOfBasis a d q ⟨0, 0, 0⟩ from rfl, r2] at e2
    exact e2
  · intro f' hf' p
    have ef : changeOfBasis a d q ∘ (changeOfBasis b e s ∘ f' ∘ changeOfBasis a d q) = f' ∘ changeOfBasis a d q := by
      calc _ = (changeOfBasis a d q ∘ changeOfBasis b e s) ∘ f' ∘ changeOfBasis a d q := rfl
        _ = _ := by rw [h1]; rfl
    have hk := hf _ ((h _ _ ef).2 hf') (changeOfBasis b e s p)
    have hk := congrArg (changeOfBasis a d q) hk
    rw [add] at hk
    have c1 := fun x => congrFun h1 x
    simp only [Function.comp_apply, id] at c1 hk
    rw [add] at hk
    simp only [c1] at hk
    exact hk

theorem SameType.polar {n n' : HallSymbolNotation} (h : SameType n n') : Polar n ↔ Polar n' :=
  ⟨h.polar_le, h.symm.polar_le⟩

/-- A direction kept by all generators is kept by the group. -/
theorem polar_of_gens {n : HallSymbolNotation} {ms : List M4} (hms : n.seitzMatrices = some ms) {v : V3} (hv : v ≠ V3.zero)
    (h : ∀ m ∈ n.gens ms, m.rot.mulVec v = v) : Polar n := by
  refine ⟨⟨v.x, v.y, v.z⟩, ?_, ?_⟩
  · intro e
    apply hv
    simp only [Pt.mk.injEq] at e
    obtain ⟨e1, e2, e3⟩ := e
    have e1 : v.x = 0 := by exact_mod_cast e1
    have e2 : v.y = 0 := by exact_mod_cast e2
    have e3 : v.z = 0 := by exact_mod_cast e3
    apply V3.ext <;> assumption
  intro f hf
  have key : ∀ (r : M3) (t : V3) (p : Pt), r.mulVec v = v →
      M4.act ⟨r, t, V3.zero, 1⟩ ⟨p.x + v.x, p.y + v.y, p.z + v.z⟩ =
      ⟨(M4.act ⟨r, t, V3.zero, 1⟩ p).x + v.x, (M4.act ⟨r, t, V3.zero, 1⟩ p).y + v.y, (M4.act ⟨r, t, V3.zero, 1⟩ p).z + v.z⟩ := by
    intro r t p e
    have ex := congrArg (fun w : V3 => (w.x : ℚ)) e
    have ey := congrArg (fun w : V3 => (w.y : ℚ)) e
    have ez := congrArg (fun w : V3 => (w.z : ℚ)) e
    simp only [M3.mulVec] at ex ey ez
    push_cast at ex ey ez
    simp only [M4.act]
    ext <;> simp only [] <;> linarith
  induction hf with
  | one => intro p; rfl
  | cell k => intro p; simp only [Pt.addCell]; ext <;> simp only [] <;> ring
  | centring hv => intro p; simp only [Pt.addTwelfths]; ext <;> simp only [] <;> ring
  | inversion hm =>
    intro p
    have := key M4.inversion.rot V3.zero p (h M4.inversion (by
      unfold HallSymbolNotation.gens
      rw [if_pos hm]
      exact List.mem_append_left _ (List.mem_singleton.2 rfl)))
    rw [show (⟨M4.inversion.rot, V3.zero, V3.zero, 1⟩ : M4) = M4.inversion from rfl, ← inversion_act] at this
    exact this
  | generator hs hg =>
    intro p
    rename_i s g
    obtain ⟨g', hmem, e⟩ := (seitzMatrices_mem hms).2 s hs
    rw [hg] at e
    obtain rfl := Option.some.inj e
    rw [shifted_act]
    exact key _ _ p (h ⟨g.rot, _, V3.zero, 1⟩ (List.mem_append_right _ (List.mem_map.2 ⟨g, hmem, rfl⟩)))
  | comp _ _ ih1 ih2 => intro p; simp only [Function.comp_apply]; rw [ih2, ih1]
  | inv _ h1 h2 ih =>
    intro p
    rename_i f g _
    have c1 := fun x => congrFun h1 x
    have c2 := fun x => congrFun h2 x
    simp only [Function.comp_apply, id] at c1 c2
    have := congrArg g (ih (g p))
    rw [c2, c1] at this
    exact this.symm

/-- The rows of `r - 1` for all rotations. -/
def stacked : List M4 → List V3
  | [] => []
  | m :: L => (⟨m.rot.m11 - 1, m.rot.m12, m.rot.m13⟩ : V3) :: ⟨m.rot.m21, m.rot.m22 - 1, m.rot.m23⟩ ::
      ⟨m.rot.m31, m.rot.m32, m.rot.m33 - 1⟩ :: stacked L

theorem stacked_zero {L : List M4} {v : Pt} (h : ∀ m ∈ L, (m.rot.m11 : ℚ) * v.x + m.rot.m12 * v.y + m.rot.m13 * v.z = v.x ∧
    (m.rot.m21 : ℚ) * v.x + m.rot.m22 * v.y + m.rot.m23 * v.z = v.y ∧ (m.rot.m31 : ℚ) * v.x + m.rot.m32 * v.y + m.rot.m33 * v.z = v.z) :
    ∀ w ∈ stacked L, (w.x : ℚ) * v.x + w.y * v.y + w.z * v.z = 0 := by
  induction L with
  | nil => intro w hw; cases hw
  | cons m L ih =>
    obtain ⟨h1, h2, h3⟩ := h m (List.mem_cons_self ..)
    intro w hw
    simp only [stacked, List.mem_cons] at hw
    rcases hw with rfl | rfl | rfl | hw
    · push_cast; linarith
    · push_cast; linarith
    · push_cast; linarith
    · exact ih (fun m hm => h m (List.mem_cons_of_mem _ hm)) w hw

/-- Three rows of the list are independent. -/
def threeIndependent (l : List V3) : Bool :=
  l.any fun a => l.any fun b => l.any fun c =>
    !(intEqB (M3.det ⟨a.x, a.y, a.z, b.x, b.y, b.z, c.x, c.y, c.z⟩) 0)

/-- Without a common fixed direction of the generators the group is not polar. -/
theorem not_polar_of_gens {n : HallSymbolNotation} {ms : List M4} (hms : n.seitzMatrices = some ms)
    (h : threeIndependent (stacked (n.gens ms)) = true) : ¬ Polar n := by
  rintro ⟨v, hv, hf⟩
  have hz := stacked_zero (L := n.gens ms) (v := v) (by
    intro m hm
    have := hf _ (gens_inGroup hms m hm).2 ⟨0, 0, 0⟩
    simp only [M4.act, Pt.mk.injEq, zero_add, mul_zero] at this
    obtain ⟨e1, e2, e3⟩ := this
    exact ⟨by linarith, by linarith, by linarith⟩)
  unfold threeIndependent at h
  obtain ⟨a, ha, h⟩ := List.any_eq_true.1 h
  obtain ⟨b, hb, h⟩ := List.any_eq_true.1 h
  obtain ⟨c, hc, h⟩ := List.any_eq_true.1 h
  have za := hz a ha
  have zb := hz b hb
  have zc := hz c hc
  have hd : ((M3.det ⟨a.x, a.y, a.z, b.x, b.y, b.z, c.x, c.y, c.z⟩ : Int) : ℚ) ≠ 0 := by
    intro e
    have e : M3.det ⟨a.x, a.y, a.z, b.x, b.y, b.z, c.x, c.y, c.z⟩ = 0 := by exact_mod_cast e
    rw [e] at h
    cases h
  simp only [M3.det] at hd
  push_cast at hd
  apply hv
  ext <;> simp only []
  · refine (mul_eq_zero.1 (?_ : _ * v.x = 0)).resolve_left hd
    linear_combination (b.y * c.z - b.z * c.y : ℚ) * za - (a.y * c.z - a.z * c.y : ℚ) * zb + (a.y * b.z - a.z * b.y : ℚ) * zc
  · refine (mul_eq_zero.1 (?_ : _ * v.y = 0)).resolve_left hd
    linear_combination (b.z * c.x - b.x * c.z : ℚ) * za - (a.z * c.x - a.x * c.z : ℚ) * zb + (a.z * b.x - a.x * b.z : ℚ) * zc
  · refine (mul_eq_zero.1 (?_ : _ * v.z = 0)).resolve_left hd
    linear_combination (b.x * c.y - b.y * c.x : ℚ) * za - (a.x * c.y - a.y * c.x : ℚ) * zb + (a.x * b.y - a.y * b.x : ℚ) * zc

/-- The row of the default table with number `k` is polar exactly if the number is listed. -/
def polarRow (k : Nat) : Bool :=
  match HallSymbolNotation.tryFromStr (Data.defaultHallName.getD (k - 1) "").toList with
  | some n =>
    match n.seitzMatrices with
    | some ms =>
      bif polarNumbers.any (fun r => Nat.ble r.1 k && Nat.ble k r.2) then
        [⟨0, 0, 1⟩, ⟨0, 1, 0⟩, ⟨1, 0, 0⟩, (⟨1, 1, 1⟩ : V3)].any fun v => (n.gens ms).all fun m => decide (m.rot.mulVec v = v)
      else threeIndependent (stacked (n.gens ms))
    | none => false
  | none => false

set_option maxRecDepth 100000 in
theorem polarRows : (List.range 230).all (fun i => polarRow (i + 1)) = true := by decide +kernel

/-- C105. Some direction is kept by all operations of the group exactly when its number is one of the 68. -/
theorem polar_iff_number {n : HallSymbolNotation} {g : GeneralPositions} (hg : HasPositions n g) :
    Polar n ↔ ∃ k, inRanges k polarNumbers ∧ HasTypeNumber n k := by
  obtain ⟨k, hk, -⟩ := one_of_230_types hg
  rw [number_unique hg hk polar_range]
  obtain ⟨⟨l1, l2⟩, code, h, n', e1, e2, e3, e4, e5⟩ := hk
  rw [e5.polar]
  have hrow := List.all_eq_true.1 polarRows (k - 1) (List.mem_range.2 (by omega))
  rw [Nat.sub_add_cancel l1] at hrow
  unfold polarRow at hrow
  have e3' : Data.defaultHallName[k - 1]? = some h := e3
  rw [List.getD_eq_getElem?_getD, e3', Option.getD_some, e4] at hrow
  simp only at hrow
  split at hrow
  · rename_i ms hms
    have hdec : polarNumbers.any (fun r => Nat.ble r.1 k && Nat.ble k r.2) = true ↔ inRanges k polarNumbers := by
      simp only [List.any_eq_true, Bool.and_eq_true, Nat.ble_eq, inRanges]
    cases hb : polarNumbers.any (fun r => Nat.ble r.1 k && Nat.ble k r.2)
    · rw [hb] at hrow hdec
      simp only [Bool.false_eq_true, false_iff] at hdec
      exact iff_of_false (not_polar_of_gens hms hrow) hdec
    · rw [hb] at hrow hdec
      simp only [true_iff] at hdec
      refine iff_of_true ?_ hdec
      obtain ⟨v, hv, h⟩ := List.any_eq_true.1 hrow
      refine polar_of_gens hms (v := v) ?_ fun m hm => of_decide_eq_true (List.all_eq_true.1 h m hm)
      rintro rfl
      exact absurd hv (by decide)
  · cases hrow

/-- C105, on the results: what the number says can be read off the core positions, consistent or not. -/
theorem kinds_listed_iff_number {n : HallSymbolNotation} {g : GeneralPositions} (hg : HasPositions n g) :
    ((∃ m ∈ g.corePositionSet, m.rotationType = some .I) ↔ ∃ k, inRanges k centricNumbers ∧ HasTypeNumber n k) ∧
    ((∀ m ∈ g.corePositionSet, m.rot.det = 1) ↔ ∃ k, inRanges k properNumbers ∧ HasTypeNumber n k) ∧
    ((∃ v : V3, v ≠ V3.zero ∧ ∀ m ∈ g.corePositionSet, m.rot.mulVec v = v) ↔ ∃ k, inRanges k polarNumbers ∧ HasTypeNumber n k) := by
  obtain ⟨hpg, haff, -⟩ := core_rotations hg
  refine ⟨?_, ?_, ?_⟩
  · rw [← centre_iff_number hg, hasCentre_iff, hpg]
    refine exists_congr fun m => and_congr_right fun hm => ?_
    have hf := fits_finiteOrder (pointGroup_fits_cell hg m.rot ((hpg _).2 ⟨m, hm, rfl⟩))
    rw [rotationType_rot (haff m hm), ← isKind_iff hf, isKind_I]
  · rw [← proper_iff_number hg]
    constructor
    · intro h r hr
      obtain ⟨m, hm, rfl⟩ := (hpg r).1 hr
      exact h m hm
    · exact fun h m hm => h _ ((hpg _).2 ⟨m, hm, rfl⟩)
  · rw [← polar_iff_number hg]
    constructor
    · rintro ⟨v, hv, h⟩
      refine ⟨⟨v.x, v.y, v.z⟩, ?_, fun f hf p => ?_⟩
      · intro e
        apply hv
        simp only [Pt.mk.injEq] at e
        obtain ⟨e1, e2, e3⟩ := e
        have e1 : v.x = 0 := by exact_mod_cast e1
        have e2 : v.y = 0 := by exact_mod_cast e2
        have e3 : v.z = 0 := by exact_mod_cast e3
        apply V3.ext <;> assumption
      · obtain ⟨m, rfl, -, -⟩ := hf.isOp
        obtain ⟨c, hc, ec⟩ := (hpg m.rot).1 ⟨_, hf, m, rfl, rfl⟩
        have e := h c hc
        rw [ec] at e
        have ex := congrArg (fun w : V3 => (w.x : ℚ)) e
        have ey := congrArg (fun w : V3 => (w.y : ℚ)) e
        have ez := congrArg (fun w : V3 => (w.z : ℚ)) e
        simp only [M3.mulVec] at ex ey ez
        push_cast at ex ey ez
        simp only [M4.act]
        ext <;> simp only [] <;> linarith
    · rintro ⟨v, hv, h⟩
      have dx : (v.x.den : ℚ) ≠ 0 := by exact_mod_cast v.x.den_nz
      have dy : (v.y.den : ℚ) ≠ 0 := by exact_mod_cast v.y.den_nz
      have dz : (v.z.den : ℚ) ≠ 0 := by exact_mod_cast v.z.den_nz
      have nx : (v.x.num : ℚ) = v.x * v.x.den := (Rat.mul_den_eq_num v.x).symm
      have ny : (v.y.num : ℚ) = v.y * v.y.den := (Rat.mul_den_eq_num v.y).symm
      have nz : (v.z.num : ℚ) = v.z * v.z.den := (Rat.mul_den_eq_num v.z).symm
      refine ⟨⟨v.x.num * (v.y.den * v.z.den), v.y.num * (v.x.den * v.z.den), v.z.num * (v.x.den * v.y.den)⟩, ?_, ?_⟩
      · intro e
        apply hv
        have ex := congrArg (fun w : V3 => (w.x : ℚ)) e
        have ey := congrArg (fun w : V3 => (w.y : ℚ)) e
        have ez := congrArg (fun w : V3 => (w.z : ℚ)) e
        simp only [V3.zero] at ex ey ez
        push_cast at ex ey ez
        rw [nx] at ex
        rw [ny] at ey
        rw [nz] at ez
        simp only [mul_eq_zero, dx, dy, dz, or_false] at ex ey ez
        ext <;> assumption
      · intro m hm
        obtain ⟨f, hf, m', er, rfl⟩ := (hpg m.rot).2 ⟨m, hm, rfl⟩
        have e := h _ hf ⟨0, 0, 0⟩
        simp only [M4.act, Pt.mk.injEq, zero_add, mul_zero, er] at e
        obtain ⟨e1, e2, e3⟩ := e
        have cast : ∀ {a b : Int}, (a : ℚ) = b → a = b := fun h => by exact_mod_cast h
        apply V3.ext <;> apply cast <;> simp only [M3.mulVec] <;> push_cast <;> rw [nx, ny, nz]
        · linear_combination (v.x.den * v.y.den * v.z.den : ℚ) * e1
        · linear_combination (v.x.den * v.y.den * v.z.den : ℚ) * e2
        · linear_combination (v.x.den * v.y.den * v.z.den : ℚ) * e3

/-- `P 4xu` has number 76: proper operations only, the direction a is kept, no inversion centre. -/
example : HasPositions (hall "P 4xu") (positionsOf "P 4xu") ∧ ProperOnly (hall "P 4xu") ∧ Polar (hall "P 4xu") ∧
    ¬ HasCentre (hall "P 4xu") := by
  obtain ⟨hg, hk, -⟩ := sample_76
  generalize hall "P 4xu" = n at *
  generalize positionsOf "P 4xu" = g at *
  have h76 : (1 ≤ 76 ∧ 76 ≤ 230) ∧ HasTypeNumber n 76 := ⟨by decide, hk⟩
  refine ⟨hg, (proper_iff_number hg).2 ⟨76, by decide, hk⟩, (polar_iff_number hg).2 ⟨76, by decide, hk⟩, fun h => ?_⟩
  exact absurd ((number_unique hg h76 centric_range).1 ((centre_iff_number hg).1 h)) (by decide)

/-- `P 2 -2d` is not consistent and has number 43: polar, with mirror planes. -/
example : HasPositions (hall "P 2 -2d") (positionsOf "P 2 -2d") ∧ ¬ ProperOnly (hall "P 2 -2d") ∧ Polar (hall "P 2 -2d") := by
  obtain ⟨hg, -, hk⟩ := sample_43
  generalize hall "P 2 -2d" = n at *
  generalize positionsOf "P 2 -2d" = g at *
  have h43 : (1 ≤ 43 ∧ 43 ≤ 230) ∧ HasTypeNumber n 43 := ⟨by decide, hk⟩
  refine ⟨hg, fun h => ?_, (polar_iff_number hg).2 ⟨43, by decide, hk⟩⟩
  exact absurd ((number_unique hg h43 proper_range).1 ((proper_iff_number hg).1 h)) (by decide)

/-- `P 2 2 -1n` is number 48 with the origin away from the centres: an inversion centre all the same, and no direction is
kept. -/
example : ∃ g, HasPositions (hall "P 2 2 -1n") g ∧ HasCentre (hall "P 2 2 -1n") ∧ ¬ Polar (hall "P 2 2 -1n") := by
  have hh : InTables "48:1" "P 2 2 -1n" := .inl ⟨227, by decide +kernel, by decide +kernel⟩
  have hh' : InTables "48:1" "-P 2ab 2bc" := .inr ⟨47, by decide +kernel, by decide +kernel⟩
  have e1 : HallSymbolNotation.tryFromStr "P 2 2 -1n".toList = some (hall "P 2 2 -1n") := by decide +kernel
  have e2 : HallSymbolNotation.tryFromStr "-P 2ab 2bc".toList = some (hall "-P 2ab 2bc") := by decide +kernel
  have hs := (type_iff_number_partial hh hh' e1 e2 (by decide) (by decide)).2 rfl
  have hk : HasTypeNumber (hall "P 2 2 -1n") 48 :=
    ⟨"48:1", "-P 2ab 2bc", _, by decide +kernel, by decide +kernel, by decide +kernel, e2, hs⟩
  obtain ⟨n, g, -, -, e3, hg, -⟩ := tabulated_usable _ _ hh
  rw [e1] at e3
  obtain rfl := Option.some.inj e3
  generalize hall "P 2 2 -1n" = n at *
  have h48 : (1 ≤ 48 ∧ 48 ≤ 230) ∧ HasTypeNumber n 48 := ⟨by decide, hk⟩
  refine ⟨g, hg, (centre_iff_number hg).2 ⟨48, by decide, hk⟩, fun h => ?_⟩
  exact absurd ((number_unique hg h48 polar_range).1 ((polar_iff_number hg).1 h)) (by decide)

/-- The lists have 92, 65 and 68 numbers. -/
example : ((List.range 231).filter fun k => decide (inRanges k centricNumbers)).length = 92 ∧
    ((List.range 231).filter fun k => decide (inRanges k properNumbers)).length = 65 ∧
    ((List.range 231).filter fun k => decide (inRanges k polarNumbers)).length = 68 := by decide +kernel

end Verif
