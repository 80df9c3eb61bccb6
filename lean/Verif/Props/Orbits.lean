import Mathlib.Algebra.BigOperators.Group.Finset.Basic
import Verif.Spec.Orbit
import Verif.Props.Canonical

/-! # The sites equivalent to a point (C76) -/

namespace Verif

theorem SameSite.refl (p : Pt) : SameSite p p := ⟨V3.zero, by simp [Pt.addCell, V3.zero]⟩

theorem SameSite.symm {p q : Pt} (h : SameSite p q) : SameSite q p := by
  obtain ⟨k, rfl⟩ := h
  exact ⟨k.neg, by simp [Pt.addCell, V3.neg]⟩

theorem SameSite.trans {p q r : Pt} (h : SameSite p q) (h' : SameSite q r) : SameSite p r := by
  obtain ⟨k, rfl⟩ := h
  obtain ⟨k', rfl⟩ := h'
  exact ⟨k.add k', by simp only [Pt.addCell, V3.add, Int.cast_add, Pt.mk.injEq]; refine ⟨?_, ?_, ?_⟩ <;> ring⟩

theorem SameSite.act (m : M4) {p q : Pt} (h : SameSite p q) : SameSite (m.act p) (m.act q) := by
  obtain ⟨k, rfl⟩ := h
  refine ⟨m.rot.mulVec k, ?_⟩
  simp only [Pt.addCell, M4.act, M3.mulVec, Int.cast_add, Int.cast_mul, Pt.mk.injEq]
  refine ⟨?_, ?_, ?_⟩ <;> ring

theorem SameModCell.site {f g : Pt → Pt} (h : SameModCell f g) (p : Pt) : SameSite (g p) (f p) := by
  obtain ⟨k, h⟩ := h
  exact ⟨k, h p⟩

/-- C76. The points equivalent to `p` are, up to whole cells, exactly the images of `p` under the listed operations. -/
theorem orbit_listed {n : HallSymbolNotation} {g : GeneralPositions} (hg : HasPositions n g) (hn : Consistent n) (p q : Pt) :
    Equivalent n p q ↔ ∃ m ∈ g.deriveFullSets.flatten, SameSite (m.act p) q := by
  constructor
  · rintro ⟨f, hf, rfl⟩
    obtain ⟨set, hset, m, hm, h⟩ := (positions_complete hg hn f).1 hf
    exact ⟨m, List.mem_flatten.2 ⟨set, hset, hm⟩, h.site p⟩
  · rintro ⟨m, hm, k, rfl⟩
    obtain ⟨set, hset, hm⟩ := List.mem_flatten.1 hm
    exact ⟨_, (SpaceGroup.cell k).comp (positions_in_group hg set hset m hm).2, rfl⟩

theorem full_unique {n : HallSymbolNotation} {g : GeneralPositions} (hg : HasPositions n g) {a b : M4}
    (ha : a ∈ g.deriveFullSets.flatten) (hb : b ∈ g.deriveFullSets.flatten) (h : SameModCell a.act b.act) : a = b := by
  by_contra hne
  have hs : ∀ {x y : M4}, ¬ SameModCell x.act y.act → ¬ SameModCell y.act x.act := by
    intro x y h1 ⟨k, h2⟩
    exact h1 ⟨k.neg, fun p => by rw [h2 p]; simp [Pt.addCell, V3.neg]⟩
  have : Std.Symm fun a b : M4 => ¬ SameModCell a.act b.act := ⟨fun _ _ h => hs h⟩
  exact (positions_distinct hg).1.forall ha hb hne h

/-- The listed operation that agrees with `f` up to whole cells. -/
theorem full_pick {n : HallSymbolNotation} {g : GeneralPositions} (hg : HasPositions n g) (hn : Consistent n) {f : Pt → Pt}
    (hf : SpaceGroup n f) : ∃ m ∈ g.deriveFullSets.flatten, SameModCell f m.act := by
  obtain ⟨set, hset, m, hm, h⟩ := (positions_complete hg hn f).1 hf
  exact ⟨m, List.mem_flatten.2 ⟨set, hset, hm⟩, h⟩

/-- Composing with a fixed operation carries the operations with `p ↦ q` injectively to operations with `p ↦ a q`. -/
theorem hits_le {n : HallSymbolNotation} {g : GeneralPositions} (hg : HasPositions n g) (hn : Consistent n) {a : M4}
    (ha : SpaceGroup n a.act) (p q : Pt) :
    hits g.deriveFullSets.flatten p q ≤ hits g.deriveFullSets.flatten p (a.act q) := by
  classical
  set L := g.deriveFullSets.flatten with hL
  have hgrp : ∀ m ∈ L, SpaceGroup n m.act := by
    intro m hm
    obtain ⟨set, hset, hm⟩ := List.mem_flatten.1 hm
    exact (positions_in_group hg set hset m hm).2
  have hnd : L.Nodup := full_nodup hg
  have key : ∀ m ∈ L, ∃ m' ∈ L, SameModCell (a.act ∘ m.act) m'.act := fun m hm => full_pick hg hn (ha.comp (hgrp m hm))
  choose! φ hφ hφ' using key
  have e : ∀ q, hits L p q = (L.toFinset.filter (fun m => SameSite (m.act p) q)).card := by
    intro q
    unfold hits
    rw [List.countP_eq_length_filter, ← List.toFinset_card_of_nodup (hnd.filter _), List.toFinset_filter]
    congr 1
    ext m
    simp
  rw [e, e]
  refine Finset.card_le_card_of_injOn φ ?_ ?_
  · intro m hm
    rw [Finset.mem_coe, Finset.mem_filter, List.mem_toFinset] at hm ⊢
    exact ⟨hφ m hm.1, ((hφ' m hm.1).site p).trans (hm.2.act a)⟩
  · intro m hm m' hm' h
    rw [Finset.mem_coe, Finset.mem_filter, List.mem_toFinset] at hm hm'
    apply full_unique hg hm.1 hm'.1
    obtain ⟨k, h1⟩ := hφ' m hm.1
    obtain ⟨k', h2⟩ := hφ' m' hm'.1
    rw [← h] at h2
    -- a (m x) = a (m' x) + (k - k'), so m x = m' x + a⁻¹ (k - k')
    have hu := ha.unimod
    refine ⟨a.rot.uinv.mulVec (k.sub k'), fun x => ?_⟩
    have h3 : a.act (m.act x) = (a.act (m'.act x)).addCell (k.sub k') := by
      have e1 := h1 x
      have e2 := h2 x
      simp only [Function.comp] at e1 e2
      rw [e1, e2]
      simp [Pt.addCell, V3.sub]
    have h4 : a.act ((m'.act x).addCell (a.rot.uinv.mulVec (k.sub k'))) = (a.act (m'.act x)).addCell (k.sub k') := by
      have e3 : a.rot.mulVec (a.rot.uinv.mulVec (k.sub k')) = k.sub k' := by
        rw [M3.mulVec_mulVec, M3.mul_uinv hu, M3.one_mulVec]
      have e4 : ∀ (p : Pt) (v : V3), a.act (p.addCell v) = (a.act p).addCell (a.rot.mulVec v) := by
        intro p v
        simp only [Pt.addCell, M4.act, M3.mulVec, Int.cast_add, Int.cast_mul, Pt.mk.injEq]
        refine ⟨?_, ?_, ?_⟩ <;> ring
      rw [e4, e3]
    have hinj : ∀ u v, a.act u = a.act v → u = v := by
      intro u v huv
      have hid := M4.uinv_act hu
      have e5 := congrFun hid u
      have e6 := congrFun hid v
      simp only [Function.comp, id] at e5 e6
      rw [← e5, huv, e6]
    exact hinj _ _ (h3.trans h4.symm)

/-- C76. Every site equivalent to `p` is reached by the same number of listed operations: the order of the site
symmetry of `p`, i.e. the number of listed operations that leave the site of `p` in place. -/
theorem orbit_counts {n : HallSymbolNotation} {g : GeneralPositions} (hg : HasPositions n g) (hn : Consistent n) {p q : Pt}
    (hq : Equivalent n p q) :
    hits g.deriveFullSets.flatten p q = hits g.deriveFullSets.flatten p p ∧ 0 < hits g.deriveFullSets.flatten p p := by
  classical
  have hsite : ∀ {q q' : Pt}, SameSite q q' → ∀ ops, hits ops p q = hits ops p q' := by
    intro q q' h ops
    unfold hits
    congr 1
    funext m
    exact decide_eq_decide.2 ⟨fun h1 => h1.trans h, fun h1 => h1.trans h.symm⟩
  obtain ⟨m, hm, hs⟩ := (orbit_listed hg hn p q).1 hq
  have hmg : SpaceGroup n m.act := by
    obtain ⟨set, hset, hm⟩ := List.mem_flatten.1 hm
    exact (positions_in_group hg set hset m hm).2
  have h1 := hits_le hg hn hmg p p
  have h2 := hits_le hg hn hmg.uinv p (m.act p)
  have h3 : m.uinv.act (m.act p) = p := congrFun (M4.uinv_act hmg.unimod) p
  rw [h3] at h2
  rw [← hsite hs]
  refine ⟨Nat.le_antisymm h2 h1, ?_⟩
  obtain ⟨m1, hm1, hs1⟩ := (orbit_listed hg hn p p).1 ⟨id, .one, rfl⟩
  unfold hits
  rw [List.countP_pos_iff]
  exact ⟨m1, hm1, by simpa using hs1⟩

/-- C76. The sites equivalent to `p` form a finite list without repetition, whose length times the order of the site
symmetry is the number of listed operations (so site multiplicities divide that number). -/
theorem site_multiplicity {n : HallSymbolNotation} {g : GeneralPositions} (hg : HasPositions n g) (hn : Consistent n) (p : Pt) :
    ∃ sites : List Pt, sites.Pairwise (fun a b => ¬ SameSite a b) ∧
      (∀ q, Equivalent n p q ↔ ∃ s ∈ sites, SameSite s q) ∧
      sites.length * hits g.deriveFullSets.flatten p p = g.deriveFullSets.flatten.length := by
  classical
  let S : Setoid Pt := ⟨SameSite, SameSite.refl, SameSite.symm, SameSite.trans⟩
  have hS : ∀ a b : Pt, (Quotient.mk S a = Quotient.mk S b) ↔ SameSite a b := fun a b => Quotient.eq (r := S)
  set L := g.deriveFullSets.flatten with hL
  let Q : List (Quotient S) := L.map fun m => Quotient.mk S (m.act p)
  have hout : ∀ c : Quotient S, Quotient.mk S c.out = c := fun c => Quotient.out_eq c
  refine ⟨Q.toFinset.toList.map Quotient.out, ?_, ?_, ?_⟩
  · rw [List.pairwise_map]
    refine (Finset.nodup_toList _).imp ?_
    intro a b hab h
    rw [← hS, hout, hout] at h
    exact hab h
  · intro q
    rw [orbit_listed hg hn]
    constructor
    · rintro ⟨m, hm, h⟩
      refine ⟨(Quotient.mk S (m.act p)).out, List.mem_map.2 ⟨_, ?_, rfl⟩, ?_⟩
      · rw [Finset.mem_toList, List.mem_toFinset]
        exact List.mem_map.2 ⟨m, hm, rfl⟩
      · rw [← hS, hout, hS]
        exact h
    · rintro ⟨s, hs, h⟩
      obtain ⟨c, hc, rfl⟩ := List.mem_map.1 hs
      rw [Finset.mem_toList, List.mem_toFinset] at hc
      obtain ⟨m, hm, rfl⟩ := List.mem_map.1 hc
      refine ⟨m, hm, ?_⟩
      rw [← hS, hout, hS] at h
      exact h
  · rw [List.length_map, Finset.length_toList]
    have h1 := List.sum_toFinset_count_eq_length Q
    have h2 : ∀ c ∈ Q.toFinset, Q.count c = hits L p p := by
      intro c hc
      rw [List.mem_toFinset] at hc
      obtain ⟨m, hm, rfl⟩ := List.mem_map.1 hc
      have hq : Equivalent n p (m.act p) := (orbit_listed hg hn p _).2 ⟨m, hm, SameSite.refl _⟩
      rw [← (orbit_counts hg hn hq).1]
      unfold hits List.count
      rw [List.countP_map]
      congr 1
      funext m'
      simp only [Function.comp]
      rw [Bool.eq_iff_iff, beq_iff_eq, decide_eq_true_eq, hS]
    rw [Finset.sum_congr rfl h2, Finset.sum_const, smul_eq_mul] at h1
    rw [h1, List.length_map]

/-- A point in general position for every group. -/
def genericPoint : Pt := ⟨1 / 100, 1 / 1000, 1 / 10000⟩

theorem digits_zero {d1 d2 d3 s : Int} (h1 : -2 ≤ d1 ∧ d1 ≤ 2) (h2 : -2 ≤ d2 ∧ d2 ≤ 2) (h3 : -2 ≤ d3 ∧ d3 ≤ 2)
    (h : 12 * (100 * d1 + 10 * d2 + d3) + 10000 * s = 0) : d1 = 0 ∧ d2 = 0 ∧ d3 = 0 ∧ s = 0 := by
  have hs : s = 0 := by
    generalize hD : 100 * d1 + 10 * d2 + d3 = D at h
    have hD1 : -222 ≤ D ∧ D ≤ 222 := by omega
    clear hD
    omega
  subst hs
  have h0 : 100 * d1 + 10 * d2 + d3 = 0 := by omega
  clear h
  have hd1 : d1 = 0 := by
    generalize hE : 10 * d2 + d3 = E at h0
    have hE1 : -22 ≤ E ∧ E ≤ 22 := by omega
    clear hE
    omega
  subst hd1
  refine ⟨rfl, ?_, ?_, rfl⟩ <;> omega

/-- C76. No listed operation can be dropped: all of them take the point `genericPoint` to different sites. -/
theorem general_point {n : HallSymbolNotation} {g : GeneralPositions} (hg : HasPositions n g) :
    g.deriveFullSets.flatten.Pairwise (fun a b => ¬ SameSite (a.act genericPoint) (b.act genericPoint)) := by
  have hsmall : ∀ m ∈ g.deriveFullSets.flatten, m.rot.Small := by
    intro m hm
    obtain ⟨set, hset, hm⟩ := List.mem_flatten.1 hm
    obtain ⟨v, hv, c, hc, rfl⟩ := mem_full.1 ⟨set, hset, hm⟩
    exact core_small hg c hc
  refine (positions_distinct hg).1.imp_of_mem ?_
  intro a b ha hb hab ⟨k, h⟩
  apply hab
  have sa := hsmall a ha
  have sb := hsmall b hb
  simp only [M3.Small, M3.toList, List.mem_cons, List.not_mem_nil, or_false, forall_eq_or_imp, forall_eq] at sa sb
  simp only [Pt.addCell, M4.act, genericPoint, Pt.mk.injEq] at h
  obtain ⟨h1, h2, h3⟩ := h
  have conv : ∀ x1 x2 x3 t y1 y2 y3 u k : Int, (x1 : ℚ) * (1 / 100) + x2 * (1 / 1000) + x3 * (1 / 10000) + t / 12 =
      y1 * (1 / 100) + y2 * (1 / 1000) + y3 * (1 / 10000) + u / 12 + k →
      (-1 ≤ x1 ∧ x1 ≤ 1) → (-1 ≤ x2 ∧ x2 ≤ 1) → (-1 ≤ x3 ∧ x3 ≤ 1) →
      (-1 ≤ y1 ∧ y1 ≤ 1) → (-1 ≤ y2 ∧ y2 ≤ 1) → (-1 ≤ y3 ∧ y3 ≤ 1) →
      y1 = x1 ∧ y2 = x2 ∧ y3 = x3 ∧ ∃ k, u - t = 12 * k := by
    intro x1 x2 x3 t y1 y2 y3 u k h l1 l2 l3 l4 l5 l6
    have : (((12 * (100 * (x1 - y1) + 10 * (x2 - y2) + (x3 - y3)) + 10000 * (t - u - 12 * k) : Int)) : ℚ) = 0 := by
      push_cast
      linarith
    obtain ⟨e1, e2, e3, e4⟩ := digits_zero (by omega) (by omega) (by omega) (Int.cast_eq_zero.1 this)
    exact ⟨by omega, by omega, by omega, -k, by omega⟩
  obtain ⟨a1, a2, a3, a4, a5, a6, a7, a8, a9⟩ := sa
  obtain ⟨b1, b2, b3, b4, b5, b6, b7, b8, b9⟩ := sb
  obtain ⟨e1, e2, e3, e4⟩ := conv _ _ _ _ _ _ _ _ _ h1 b1 b2 b3 a1 a2 a3
  obtain ⟨f1, f2, f3, f4⟩ := conv _ _ _ _ _ _ _ _ _ h2 b4 b5 b6 a4 a5 a6
  obtain ⟨g1, g2, g3, g4⟩ := conv _ _ _ _ _ _ _ _ _ h3 b7 b8 b9 a7 a8 a9
  refine M4.sameModCell_of_cong (M3.ext e1 e2 e3 f1 f2 f3 g1 g2 g3) ⟨?_, ?_, ?_⟩
  · obtain ⟨k, hk⟩ := e4; exact ⟨k, hk⟩
  · obtain ⟨k, hk⟩ := f4; exact ⟨k, hk⟩
  · obtain ⟨k, hk⟩ := g4; exact ⟨k, hk⟩

theorem pureTxt_length {g : GeneralPositions} {ts : List (List Char)} (h : g.pureTxt = .ok ts) :
    ts.length = g.deriveFullSets.flatten.length := by
  unfold GeneralPositions.pureTxt at h
  generalize g.deriveFullSets.flatten = l at h
  induction l generalizing ts with
  | nil => cases h; rfl
  | cons a l ih =>
    rw [List.mapM_cons] at h
    cases ha : a.jones with
    | error e => rw [ha] at h; cases h
    | ok t =>
      cases hl : l.mapM M4.jones with
      | error e => rw [ha, hl] at h; cases h
      | ok ts' =>
        rw [ha, hl] at h
        cases h
        simp [ih hl]

/-- C76, in print: `pure_txt` succeeds, every printed triplet can be read, and applying all of them to `p` gives, up to
whole cells, exactly the points equivalent to `p`. -/
theorem printed_orbit {n : HallSymbolNotation} {g : GeneralPositions} (hg : HasPositions n g) (hn : Consistent n) :
    ∃ ts, g.pureTxt = .ok ts ∧ (∀ t ∈ ts, ∃ f, Spec.readMap t = some f) ∧
      ∀ p q, Equivalent n p q ↔ ∃ t ∈ ts, ∃ f, Spec.readMap t = some f ∧ SameSite (f p) q := by
  have hsmall : ∀ m ∈ g.deriveFullSets.flatten, m.rot.Small := by
    intro m hm
    obtain ⟨set, hset, hm⟩ := List.mem_flatten.1 hm
    obtain ⟨v, hv, c, hc, rfl⟩ := mem_full.1 ⟨set, hset, hm⟩
    exact core_small hg c hc
  obtain ⟨ts, hts⟩ := text_listing_total g (core_small hg)
  have hlen : ts.length = g.deriveFullSets.flatten.length := (pureTxt_length hts)
  have hmem : ∀ t ∈ ts, ∃ m ∈ g.deriveFullSets.flatten, m.jones = .ok t := by
    intro t ht
    obtain ⟨k, hk, rfl⟩ := List.mem_iff_getElem.1 ht
    have hk' : k < g.deriveFullSets.flatten.length := hlen ▸ hk
    obtain ⟨t', h1, h2⟩ := pure_txt_texts g ts hts k _ (List.getElem?_eq_getElem hk')
    rw [List.getElem?_eq_getElem hk] at h1
    cases h1
    exact ⟨_, List.getElem_mem hk', h2⟩
  have hread : ∀ m ∈ g.deriveFullSets.flatten, ∀ t, m.jones = .ok t → ∃ f, Spec.readMap t = some f ∧ SameModCell f m.act := by
    intro m hm t ht
    obtain ⟨t', f, h1, h2, h3⟩ := jones_denotes m (hsmall m hm)
    rw [ht] at h1
    cases h1
    exact ⟨f, h2, h3⟩
  refine ⟨ts, hts, ?_, ?_⟩
  · intro t ht
    obtain ⟨m, hm, h⟩ := hmem t ht
    obtain ⟨f, h1, _⟩ := hread m hm t h
    exact ⟨f, h1⟩
  · intro p q
    rw [orbit_listed hg hn]
    constructor
    · rintro ⟨m, hm, hs⟩
      obtain ⟨k, hk, rfl⟩ := List.mem_iff_getElem.1 hm
      obtain ⟨t, h1, h2⟩ := pure_txt_texts g ts hts k _ (List.getElem?_eq_getElem hk)
      obtain ⟨f, h3, h4⟩ := hread _ hm t h2
      exact ⟨t, List.mem_of_getElem? h1, f, h3, (h4.site p).symm.trans hs⟩
    · rintro ⟨t, ht, f, hf, hs⟩
      obtain ⟨m, hm, h⟩ := hmem t ht
      obtain ⟨f', h3, h4⟩ := hread _ hm t h
      rw [hf] at h3
      cases h3
      exact ⟨m, hm, (h4.site p).trans hs⟩

/-- The theorems apply to `-C 2c 2` (16 operations), whose screw axis takes the origin to (0, 0, 1/2). -/
example : Consistent sampleN ∧ HasPositions sampleN sampleG ∧ sampleG.deriveFullSets.flatten.length = 16 ∧
    Equivalent sampleN ⟨0, 0, 0⟩ ⟨0, 0, 1 / 2⟩ := by
  refine ⟨sample_consistent, sample_positions, by decide, ?_⟩
  rw [orbit_listed sample_positions sample_consistent]
  exact ⟨⟨⟨-1, 0, 0, 0, -1, 0, 0, 0, 1⟩, ⟨0, 0, 6⟩, ⟨0, 0, 0⟩, 1⟩, by decide, V3.zero, by
    simp only [M4.act, Pt.addCell, V3.zero]; norm_num⟩

end Verif
