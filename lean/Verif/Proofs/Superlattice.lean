import Verif.Proofs.ArithPair

/-! # From a lattice that contains the whole cells to the lattice of whole cells -/

namespace Verif.Arith
open Verif.Subs

/-- How a lattice between the whole vectors and their halves or thirds becomes the lattice of whole vectors: class afterwards,
change of basis `a/d`, the words that become the generators, and the lattice vectors (in units of `1/p`) that become the edges. -/
structure Up where
  cls : Nat
  a : M3
  d : Nat
  w : Tri (List Nat)
  b : Tri V3

/-- The `i`-th vector modulo `p`. -/
def vecOf (p i : Nat) : V3 := ⟨(i / (p * p) % p : Nat), (i / p % p : Nat), (i % p : Nat)⟩

/-- The place of a vector modulo `p`. -/
def idxOf (p : Nat) (v : V3) : Nat := ((v.x % p) * (p * p : Nat) + (v.y % p) * p + v.z % p).toNat

/-- All entries of the vector's image are divisible. -/
def dividesB (a : M3) (m : Nat) (t : V3) : Bool :=
  let u := a.mulVec t
  (u.x % m == 0) && (u.y % m == 0) && (u.z % m == 0)

/-- `none`: the lattice is not invariant; `some`: the data are right. -/
def riseCheck (cs : List Cls) (c : Cls) (p : Nat) (elems : List Nat) : Option Up → Bool
  | none => elems.any fun i => [c.gens.a, c.gens.b, c.gens.c].any fun g => ! elems.contains (idxOf p (g.mulVec (vecOf p i)))
  | some u =>
    match cs[u.cls]? with
    | none => false
    | some c' =>
      Nat.blt 0 u.d && decide (0 < u.a.det) && Nat.beq c.words.length c'.words.length &&
      (u.a.mul (prod c.gens u.w.a)).eqB (c'.gens.a.mul u.a) && (u.a.mul (prod c.gens u.w.b)).eqB (c'.gens.b.mul u.a) &&
      (u.a.mul (prod c.gens u.w.c)).eqB (c'.gens.c.mul u.a) &&
      (([⟨p, 0, 0⟩, ⟨0, p, 0⟩, ⟨0, 0, p⟩] : List V3) ++ elems.map (vecOf p)).all (dividesB u.a (p * u.d)) &&
      elems.contains (idxOf p u.b.a) && elems.contains (idxOf p u.b.b) && elems.contains (idxOf p u.b.c) &&
      decide (u.a.mulVec u.b.a = ⟨(p * u.d : Nat), 0, 0⟩) && decide (u.a.mulVec u.b.b = ⟨0, (p * u.d : Nat), 0⟩) &&
      decide (u.a.mulVec u.b.c = ⟨0, 0, (p * u.d : Nat)⟩)

/-- All lattices for one class. -/
def risesCheck (cs : List Cls) (c : Cls) (p : Nat) : List (Nat × List Nat × List Nat × List Nat) → List (Option Up) → Bool
  | [], _ => true
  | s :: ss, u :: us => riseCheck cs c p s.2.1 u && risesCheck cs c p ss us
  | _ :: _, [] => false

/-- All classes. -/
def allRises (cs : List Cls) (p : Nat) (subs : List (Nat × List Nat × List Nat × List Nat)) : List Cls → List (List (Option Up)) → Bool
  | [], _ => true
  | c :: l, us :: uss => risesCheck cs c p subs us && allRises cs p subs l uss
  | _ :: _, [] => false

/-- The table is that of addition. -/
def addCheck (p T : Nat) : Bool :=
  (List.range (p * p * p)).all fun i => (List.range (p * p * p)).all fun j =>
    Nat.beq (idxOf p ((vecOf p i).add (vecOf p j))) (mulIdx T i j)

theorem risesCheck_mem {cs : List Cls} {c : Cls} {p : Nat} {ss : List (Nat × List Nat × List Nat × List Nat)} {us : List (Option Up)}
    (h : risesCheck cs c p ss us = true) {s : Nat × List Nat × List Nat × List Nat} (hs : s ∈ ss) :
    ∃ u, riseCheck cs c p s.2.1 u = true := by
  induction ss generalizing us with
  | nil => cases hs
  | cons t ss ih =>
    cases us with
    | nil => simp [risesCheck] at h
    | cons u us =>
      simp only [risesCheck, Bool.and_eq_true] at h
      rcases List.mem_cons.1 hs with rfl | hs
      · exact ⟨u, h.1⟩
      · exact ih h.2 hs

theorem allRises_mem {cs : List Cls} {p : Nat} {subs : List (Nat × List Nat × List Nat × List Nat)} {l : List Cls}
    {uss : List (List (Option Up))} (h : allRises cs p subs l uss = true) {c : Cls} (hc : c ∈ l) :
    ∃ us, risesCheck cs c p subs us = true := by
  induction l generalizing uss with
  | nil => cases hc
  | cons t l ih =>
    cases uss with
    | nil => simp [allRises] at h
    | cons u us =>
      simp only [allRises, Bool.and_eq_true] at h
      rcases List.mem_cons.1 hc with rfl | hc
      · exact ⟨u, h.1⟩
      · exact ih h.2 hc

theorem idxOf_spec {p : Nat} (hp : p = 2 ∨ p = 3) (v : V3) :
    idxOf p v < p * p * p ∧ ∃ k : V3, v = (vecOf p (idxOf p v)).add (V3.smul p k) := by
  rcases hp with rfl | rfl
  · refine ⟨by simp only [idxOf]; omega, ⟨v.x / 2, v.y / 2, v.z / 2⟩, ?_⟩
    ext <;> simp only [idxOf, vecOf, V3.add, V3.smul] <;> omega
  · refine ⟨by simp only [idxOf]; omega, ⟨v.x / 3, v.y / 3, v.z / 3⟩, ?_⟩
    ext <;> simp only [idxOf, vecOf, V3.add, V3.smul] <;> omega

theorem dividesB_iff {a : M3} {m : Nat} {t : V3} (h : dividesB a m t = true) : ∃ z : V3, a.mulVec t = V3.smul m z := by
  simp only [dividesB, Bool.and_eq_true, beq_iff_eq] at h
  obtain ⟨⟨h1, h2⟩, h3⟩ := h
  obtain ⟨k1, e1⟩ := Int.dvd_of_emod_eq_zero h1
  obtain ⟨k2, e2⟩ := Int.dvd_of_emod_eq_zero h2
  obtain ⟨k3, e3⟩ := Int.dvd_of_emod_eq_zero h3
  exact ⟨⟨k1, k2, k3⟩, V3.ext e1 e2 e3⟩

theorem over_add_smul {p : Nat} (hp : 0 < p) (v k : V3) : over p (v.add (V3.smul p k)) = k.whole.plus (over p v) := by
  have hq : (p : ℚ) ≠ 0 := by exact_mod_cast hp.ne'
  simp only [over, Pt.scale, Pt.plus, V3.whole, V3.add, V3.smul]
  push_cast
  ext <;> simp only [] <;> field_simp <;> ring

theorem over_add (p : Nat) (v w : V3) : over p (v.add w) = (over p v).plus (over p w) := by
  simp only [over, Pt.scale, Pt.plus, V3.whole, V3.add]
  push_cast
  ext <;> simp only [] <;> ring

theorem onPt_over (a : M3) (p : Nat) (v : V3) : a.onPt (over p v) = over p (a.mulVec v) := by
  simp only [over, Pt.scale, M3.onPt, V3.whole, M3.mulVec]
  push_cast
  ext <;> simp only [] <;> ring

/-- The generators of a checked class are in its group. -/
theorem Cls.gens_mem {c : Cls} (h : c.check = true) : c.gens.a ∈ c.grp ∧ c.gens.b ∈ c.grp ∧ c.gens.c ∈ c.grp := by
  unfold Cls.check at h
  simp only [Bool.and_eq_true] at h
  obtain ⟨⟨⟨⟨⟨⟨⟨⟨⟨⟨⟨-, wa⟩, wb⟩, wc⟩, -⟩, -⟩, -⟩, -⟩, -⟩, -⟩, -⟩, -⟩ := h
  have mem : ∀ {g : M3}, isWord (c.words.map (fun w => (sym c.gens w).rot)) g = true → g ∈ c.grp := by
    intro g hg
    obtain ⟨w, hw, e⟩ := List.mem_map.1 (isWord_iff hg)
    exact ⟨w, hw, e⟩
  exact ⟨mem wa, mem wb, mem wc⟩

theorem Cls.words_nodup {c : Cls} (h : c.check = true) : (c.words.map (fun w => (sym c.gens w).rot)).Nodup := by
  unfold Cls.check at h
  simp only [Bool.and_eq_true] at h
  exact nodupB_iff h.1.1.1.1.1.1.1.1.1.1.1

/-- A lattice whose `pN`-fold is whole becomes one whose `N`-fold is whole. -/
theorem rise {cs : List Cls} (hcs : ∀ c ∈ cs, c.check = true) {p : Nat} (hp : p = 2 ∨ p = 3) {T : Nat} {masks : List Nat}
    {subs : List (Nat × List Nat × List Nat × List Nat)} {uss : List (List (Option Up))}
    (hT : addCheck p T = true) (hm : subs.map (·.1) = masks) (hm0 : 1 <<< 0 ∈ masks)
    (hsub : subs.all (subCheck T (p * p * p) 0 masks) = true) (hr : allRises cs p subs cs uss = true) {c : Cls} (hc : c ∈ cs) {N : Nat}
    {S : (Pt → Pt) → Prop} {L : Pt → Prop} (hS : SpaceLike S L c.grp) (h1 : ∀ t, Integral t → L t)
    (hN : ∀ t, L t → Integral (Pt.scale (p * N) t)) :
    ∃ c' ∈ cs, ∃ S' L', SameKind S S' ∧ SpaceLike S' L' c'.grp ∧ (∀ t, Integral t → L' t) ∧
      ∀ t, L' t → Integral (Pt.scale N t) := by
  have hpos : 0 < p := by omega
  have hpq : (p : ℚ) ≠ 0 := by exact_mod_cast hpos.ne'
  have h0 : L ⟨0, 0, 0⟩ := h1 _ integral_zero
  -- the vectors modulo p
  have hidx : ∀ v : V3, L (over p v) ↔ L (over p (vecOf p (idxOf p v))) := by
    intro v
    obtain ⟨-, k, hk⟩ := idxOf_spec hp v
    have e : over p v = k.whole.plus (over p (vecOf p (idxOf p v))) := by
      conv_lhs => rw [hk]
      exact over_add_smul hpos _ _
    constructor
    · intro h
      have := lat_add hS (h1 _ ⟨k.neg, rfl⟩) h
      have e2 : (V3.whole k.neg).plus (over p v) = over p (vecOf p (idxOf p v)) := by
        rw [e]
        simp only [V3.whole, V3.neg, Pt.plus]
        push_cast
        ext <;> simp only [] <;> ring
      rwa [e2] at this
    · intro h
      rw [e]
      exact lat_add hS (h1 _ ⟨k, rfl⟩) h
  simp only [addCheck, List.all_eq_true, List.mem_range, Nat.beq_eq] at hT
  let G : Nat → Prop := fun i => i < p * p * p ∧ L (over p (vecOf p i))
  obtain ⟨s, hs, hG⟩ := subs_complete (G := G) hm hm0 hsub
    (fun i j hi hj => by
      rw [← hT i hi.1 j hj.1]
      refine ⟨(idxOf_spec hp _).1, ?_⟩
      rw [← hidx, over_add]
      exact lat_add hS hi.2 hj.2)
    ⟨by rcases hp with rfl | rfl <;> decide, by
      have : over p (vecOf p 0) = ⟨0, 0, 0⟩ := by
        simp [over, vecOf, V3.whole, Pt.scale]
      rw [this]; exact h0⟩
    (fun i hi => hi.1)
  have helem : ∀ v : V3, L (over p v) ↔ idxOf p v ∈ s.2.1 := fun v => by
    rw [hidx, hG]
    exact ⟨fun h => ⟨(idxOf_spec hp v).1, h⟩, fun h => h.2⟩
  obtain ⟨us, hus⟩ := allRises_mem hr hc
  obtain ⟨u, hu⟩ := risesCheck_mem hus hs
  have hck := hcs c hc
  obtain ⟨ga, gb, gc⟩ := Cls.gens_mem hck
  cases u with
  | none =>
    exfalso
    simp only [riseCheck, List.any_eq_true, Bool.not_eq_true', Bool.eq_false_iff, ne_eq, List.contains_iff_mem] at hu
    obtain ⟨i, hi, g, hg, hne⟩ := hu
    apply hne
    rw [← helem, ← onPt_over]
    have hgm : g ∈ c.grp := by
      simp only [List.mem_cons, List.not_mem_nil, or_false] at hg
      rcases hg with rfl | rfl | rfl
      · exact ga
      · exact gb
      · exact gc
    obtain ⟨t, ht⟩ := hS.all _ hgm
    have h2 := hS.comp _ _ ht ((hS.lat _).2 ((hG i).1 hi).2)
    rw [aff_comp, M3.mul_one] at h2
    exact hS.diff h2 ht rfl
  | some u =>
    simp only [riseCheck] at hu
    cases hcp : cs[u.cls]? with
    | none => rw [hcp] at hu; cases hu
    | some c' =>
      rw [hcp] at hu
      simp only [Bool.and_eq_true, decide_eq_true_eq, Nat.beq_eq, Nat.blt_eq, M3.eqB_iff, List.all_eq_true,
        List.contains_iff_mem] at hu
      obtain ⟨⟨⟨⟨⟨⟨⟨⟨⟨⟨⟨⟨hd, ha⟩, hlen⟩, e1⟩, e2⟩, e3⟩, hw⟩, i1⟩, i2⟩, i3⟩, b1⟩, b2⟩, b3⟩ := hu
      have hc' := List.mem_of_getElem? hcp
      have hck' := hcs c' hc'
      have hdq : (u.d : ℚ) ≠ 0 := by exact_mod_cast hd.ne'
      have hone : M3.one ∈ c.grp := hS.rot_mem ((hS.lat _).2 h0)
      have hprod : ∀ w, prod c.gens w ∈ c.grp := by
        intro w
        induction w with
        | nil => exact hone
        | cons i w ih => rcases i with _ | _ | i <;> exact hS.mul_mem (by assumption) ih
      obtain ⟨p1, p2⟩ := conj_grp (c := c') (P := c.grp) (Cls.words_nodup hck') (grp_finite c) (by rw [← hlen]; exact grp_ncard c)
        hone (fun r hr r' hr' => hS.mul_mem hr hr') ha (r := ⟨_, _, _⟩) (hprod u.w.a) (hprod u.w.b) (hprod u.w.c) e1 e2 e3
      -- the lattice in the new coordinates
      have cast : ∀ {v w : V3}, v = w → (v.x : ℚ) = w.x ∧ (v.y : ℚ) = w.y ∧ (v.z : ℚ) = w.z := fun h => by rw [h]; exact ⟨rfl, rfl, rfl⟩
      have hwhole : ∀ t, L t → Integral (Pt.scale p t) → Integral (Pt.scale (1 / u.d) (u.a.onPt t)) := by
        rintro t ht ⟨k, hk⟩
        have et : t = over p k := by
          have hx := congrArg Pt.x hk
          have hy := congrArg Pt.y hk
          have hz := congrArg Pt.z hk
          simp only [Pt.scale, V3.whole] at hx hy hz
          simp only [over, Pt.scale, V3.whole]
          ext <;> simp only [] <;> field_simp <;> linarith
        rw [et] at ht
        obtain ⟨-, m, hm⟩ := idxOf_spec hp k
        obtain ⟨z1, f1⟩ := dividesB_iff (hw ⟨p, 0, 0⟩ (by simp))
        obtain ⟨z2, f2⟩ := dividesB_iff (hw ⟨0, p, 0⟩ (by simp))
        obtain ⟨z3, f3⟩ := dividesB_iff (hw ⟨0, 0, p⟩ (by simp))
        obtain ⟨z, f⟩ := dividesB_iff (hw _ (List.mem_append_right _ (List.mem_map.2 ⟨_, (helem k).1 ht, rfl⟩)))
        refine ⟨(((V3.smul m.x z1).add (V3.smul m.y z2)).add (V3.smul m.z z3)).add z, ?_⟩
        have g1 := cast f1
        have g2 := cast f2
        have g3 := cast f3
        have g := cast f
        have gk := cast hm
        simp only [M3.mulVec, V3.smul, V3.add] at g1 g2 g3 g gk
        generalize vecOf p (idxOf p k) = v0 at *
        push_cast at g1 g2 g3 g gk
        rw [et]
        simp only [over, Pt.scale, M3.onPt, V3.whole, V3.add, V3.smul]
        push_cast
        ext <;> simp only [] <;> field_simp
        · linear_combination g.1 + m.x * g1.1 + m.y * g2.1 + m.z * g3.1 + u.a.m11 * gk.1 + u.a.m12 * gk.2.1 + u.a.m13 * gk.2.2
        · linear_combination g.2.1 + m.x * g1.2.1 + m.y * g2.2.1 + m.z * g3.2.1 + u.a.m21 * gk.1 + u.a.m22 * gk.2.1 + u.a.m23 * gk.2.2
        · linear_combination g.2.2 + m.x * g1.2.2 + m.y * g2.2.2 + m.z * g3.2.2 + u.a.m31 * gk.1 + u.a.m32 * gk.2.1 + u.a.m33 * gk.2.2
      have hfrom : ∀ z : V3, ∃ t, L t ∧ z.whole = Pt.scale (1 / u.d) (u.a.onPt t) := by
        intro z
        refine ⟨((Pt.scale z.x (over p u.b.a)).plus (Pt.scale z.y (over p u.b.b))).plus (Pt.scale z.z (over p u.b.c)),
          lat_add hS (lat_add hS (lat_zsmul hS h0 ((helem _).2 i1) z.x) (lat_zsmul hS h0 ((helem _).2 i2) z.y))
            (lat_zsmul hS h0 ((helem _).2 i3) z.z), ?_⟩
        have f1 := cast b1
        have f2 := cast b2
        have f3 := cast b3
        simp only [M3.mulVec] at f1 f2 f3
        push_cast at f1 f2 f3
        simp only [M3.onPt, Pt.scale, Pt.plus, over, V3.whole]
        ext <;> simp only [] <;> field_simp
        · linear_combination -(z.x * f1.1 + z.y * f2.1 + z.z * f3.1)
        · linear_combination -(z.x * f1.2.1 + z.y * f2.2.1 + z.z * f3.2.1)
        · linear_combination -(z.x * f1.2.2 + z.y * f2.2.2 + z.z * f3.2.2)
      let L' : Pt → Prop := fun t' => ∃ t, L t ∧ t' = Pt.scale (1 / u.d) (u.a.onPt t)
      have hL : ∀ t, L t ↔ L' (Pt.scale (1 / u.d) (u.a.onPt t)) := by
        intro t
        refine ⟨fun h => ⟨t, h, rfl⟩, ?_⟩
        rintro ⟨t2, h2, e⟩
        have e' : u.a.onPt t = u.a.onPt t2 := by
          have hx := congrArg Pt.x e
          have hy := congrArg Pt.y e
          have hz := congrArg Pt.z e
          simp only [Pt.scale] at hx hy hz
          have hdi : (1 / (u.d : ℚ)) ≠ 0 := by positivity
          exact Pt.ext (mul_left_cancel₀ hdi hx) (mul_left_cancel₀ hdi hy) (mul_left_cancel₀ hdi hz)
        rw [onPt_inj ha e']
        exact h2
      refine ⟨c', hc', _, L', sameKind_conj hd ha, hS.conj (q := ⟨0, 0, 0⟩) hd ha p1 p2 hL, ?_, ?_⟩
      · rintro t ⟨z, rfl⟩
        exact hfrom z
      · rintro t' ⟨t, ht, rfl⟩
        have h2 : L (Pt.scale N t) := by
          have := lat_zsmul hS h0 ht N
          exact_mod_cast this
        have h3 : Integral (Pt.scale p (Pt.scale N t)) := by
          refine integral_congr (hN t ht) ?_
          simp only [Pt.scale]
          ext <;> simp only [] <;> ring
        refine integral_congr (hwhole _ h2 h3) ?_
        simp only [Pt.scale, M3.onPt]
        ext <;> simp only [] <;> ring

/-- The group of any notation, with its own translations. -/
theorem spaceLike_own (n : HallSymbolNotation) :
    SpaceLike (SpaceGroup n) (fun t => SpaceGroup n (aff M3.one t)) (PointGroup n) := by
  refine ⟨?_, ?_, fun f g hf hg => hf.comp hg, ?_, fun t => Iff.rfl⟩
  · intro f hf
    obtain ⟨m, rfl, -, -⟩ := hf.isOp
    exact ⟨m.rot, ⟨_, hf, m, rfl, rfl⟩, _, m.act_eq_aff⟩
  · rintro r ⟨f, hf, m, rfl, rfl⟩
    exact ⟨_, by rw [M4.act_eq_aff] at hf; exact hf⟩
  · intro f hf
    obtain ⟨m, rfl, -, hu⟩ := hf.isOp
    exact ⟨m.uinv.act, hf.uinv, M4.act_uinv hu, M4.uinv_act hu⟩

theorem own_whole (n : HallSymbolNotation) {t : Pt} (h : Integral t) : SpaceGroup n (aff M3.one t) := by
  obtain ⟨k, rfl⟩ := h
  refine SpaceGroup.lattice ⟨V3.zero, Lattices.zero_mem _, k, fun p => ?_⟩
  simp only [aff, M3.onPt, M3.one, Pt.plus, Pt.addTwelfths, Pt.addCell, V3.whole, V3.zero]
  ext <;> simp only [] <;> push_cast <;> ring

theorem own_twelfths {n : HallSymbolNotation} {t : Pt} (h : SpaceGroup n (aff M3.one t)) : Integral (Pt.scale 12 t) := by
  obtain ⟨m, e, -, -⟩ := h.isOp
  rw [M4.act_eq_aff] at e
  obtain ⟨-, rfl⟩ := aff_inj e
  refine ⟨m.tr, ?_⟩
  simp only [Pt.scale, V3.whole]
  ext <;> simp only [] <;> ring

/-- The rotations of any notation become, in other coordinates, those of a class; the lattice may be larger than the whole
cells. -/
theorem class_of_closed {cs : List Cls} (hcs : ∀ c ∈ cs, c.check = true) {L : List M3} {T K id : Nat} {masks : List Nat}
    {subs : List (Nat × List Nat × List Nat × List Nat)} {rows : List Pair}
    (ht : tableCheck L T K = true) (hid : L.getD id M3.one = M3.one ∧ id < L.length)
    (hm : subs.map (·.1) = masks) (h0 : 1 <<< id ∈ masks) (hc : subs.all (subCheck T L.length id masks) = true)
    (hp : pairsCheck cs L subs rows = true) {n : HallSymbolNotation} (hsub : ∀ a ∈ PointGroup n, a ∈ L) :
    ∃ c ∈ cs, ∃ S' L', SameKind (SpaceGroup n) S' ∧ SpaceLike S' L' c.grp ∧ (∀ t, Integral t → L' t) ∧
      ∀ t, L' t → Integral (Pt.scale 12 t) := by
  classical
  have hS := spaceLike_own n
  have hone : M3.one ∈ PointGroup n := hS.rot_mem (own_whole n integral_zero)
  have hmul : ∀ a ∈ PointGroup n, ∀ b ∈ PointGroup n, a.mul b ∈ PointGroup n := fun a ha b hb => hS.mul_mem ha hb
  simp only [tableCheck, List.all_eq_true, List.mem_range, Bool.and_eq_true, beq_iff_eq, M3.eqB_iff,
    Nat.blt_eq] at ht
  let G : Nat → Prop := fun i => i < L.length ∧ L.getD i M3.one ∈ PointGroup n
  obtain ⟨s, hs, hG⟩ := subs_complete (G := G) hm h0 hc
    (fun i j hi hj => by
      obtain ⟨h1, h2⟩ := (ht i hi.1).2 j hj.1
      exact ⟨h1, h2 ▸ hmul _ hi.2 _ hj.2⟩)
    ⟨hid.2, by rw [hid.1]; exact hone⟩ (fun i hi => hi.1)
  obtain ⟨p, hp⟩ := pairsCheck_mem hp hs
  have hset : PointGroup n = ((s.2.1.map (fun i => L.getD i M3.one)).toFinset : Set M3) := by
    ext r
    simp only [List.coe_toFinset, Set.mem_ofPred_eq, List.mem_map]
    constructor
    · intro h1
      obtain ⟨i, hi, rfl⟩ := List.mem_iff_getElem.1 (hsub r h1)
      have e : L.getD i M3.one = L[i] := by
        rw [List.getD_eq_getElem?_getD, List.getElem?_eq_getElem hi]; rfl
      exact ⟨i, (hG i).2 ⟨hi, e ▸ h1⟩, e⟩
    · rintro ⟨i, h1, rfl⟩
      exact ((hG i).1 h1).2
  have hfin : (PointGroup n).Finite := by rw [hset]; exact Finset.finite_toSet _
  have hcard : (PointGroup n).ncard ≤ s.2.1.length := by
    rw [hset, Set.ncard_coe_finset]
    exact (List.toFinset_card_le _).trans (by rw [List.length_map])
  simp only [pairCheck] at hp
  cases hcp : cs[p.cls]? with
  | none => rw [hcp] at hp; cases hp
  | some c =>
    rw [hcp] at hp
    simp only [Bool.and_eq_true, decide_eq_true_eq, Nat.beq_eq, M3.eqB_iff, List.contains_iff_mem] at hp
    obtain ⟨⟨⟨⟨⟨⟨⟨hdet, hlen⟩, m1⟩, m2⟩, m3⟩, e1⟩, e2⟩, e3⟩ := hp
    have ha : 0 < p.a.det := by omega
    have hcm := List.mem_of_getElem? hcp
    have hck := hcs c hcm
    have inP : ∀ {i : Nat}, i ∈ s.2.1 → L.getD i M3.one ∈ PointGroup n := fun h => ((hG _).1 h).2
    obtain ⟨p1, p2⟩ := conj_grp (c := c) (P := PointGroup n) (Cls.words_nodup hck) hfin (by rw [← hlen]; exact hcard) hone hmul ha
      (r := ⟨_, _, _⟩) (inP m1) (inP m2) (inP m3) e1 e2 e3
    have hback : ∀ t : Pt, p.a.uinv.onPt (p.a.onPt t) = t := fun t => by
      rw [onPt_onPt, M3.uinv_mul (.inl hdet), one_onPt]
    have hforth : ∀ t : Pt, p.a.onPt (p.a.uinv.onPt t) = t := fun t => by
      rw [onPt_onPt, M3.mul_uinv (.inl hdet), one_onPt]
    have h1 : ∀ q : Pt, Pt.scale (1 / (1 : Nat)) q = q := by intro q; simp [Pt.scale]
    refine ⟨c, hcm, _, fun t => SpaceGroup n (aff M3.one (p.a.uinv.onPt t)), sameKind_conj (d := 1) (by decide) ha,
      hS.conj (q := ⟨0, 0, 0⟩) (by decide) ha p1 p2 (fun t => ?_), ?_, ?_⟩
    · rw [h1, hback]
    · intro t ht'
      exact own_whole n (onPt_integral ht')
    · intro t h2
      refine integral_congr (onPt_integral (a := p.a) (own_twelfths h2)) ?_
      conv_rhs => rw [← hforth t]
      generalize p.a.uinv.onPt t = u
      simp only [Pt.scale, M3.onPt]
      ext <;> simp only [] <;> ring

/-- A group over a checked class whose lattice is that of whole cells gives a representative. -/
theorem hasRep_of_whole {c : Cls} (hc : c.check = true) {n : HallSymbolNotation} {S : (Pt → Pt) → Prop} {L : Pt → Prop}
    (k : SameKind (SpaceGroup n) S) (hS : SpaceLike S L c.grp) (h1 : ∀ t, Integral t → L t)
    (h2 : ∀ t, L t → Integral (Pt.scale (1 : Nat) t)) : ∃ i, HasRep n c i := by
  have hS' : SpaceLike S Integral c.grp := by
    refine ⟨hS.ops, hS.all, hS.comp, hS.inv, fun t => (hS.lat t).trans ⟨fun h => ?_, h1 t⟩⟩
    have := h2 t h
    have e : Pt.scale ((1 : Nat) : ℚ) t = t := by simp [Pt.scale]
    rwa [e] at this
  obtain ⟨i, u, hu, S', k', r⟩ := Cls.sound hc hS'
  exact ⟨i, u, hu, S', k.trans k', r⟩

end Verif.Arith
