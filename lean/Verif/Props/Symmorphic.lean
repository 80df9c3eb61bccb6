import Verif.Spec.Symmorphic
import Verif.Props.Complete
import Verif.Props.Site

/-! # Points of full symmetry (C103) -/

namespace Verif
open Arith

/-- A point of full symmetry of a group of maps. -/
def FullAt (S : (Pt → Pt) → Prop) (p : Pt) : Prop := ∀ f, S f → ∃ t, S (aff M3.one t) ∧ (f p).plus t = p

theorem aff_one (t p : Pt) : aff M3.one t p = p.plus t := by
  unfold aff
  rw [one_onPt]

theorem symmorphic_iff (n : HallSymbolNotation) : Symmorphic n ↔ ∃ p, FullAt (SpaceGroup n) p := by
  refine exists_congr fun p => forall_congr' fun f => imp_congr_right fun _ => ⟨?_, ?_⟩
  · rintro ⟨τ, h1, ⟨q, hq⟩, h3⟩
    have e : τ = aff M3.one q := funext fun x => by rw [hq, aff_one]; rfl
    rw [e, aff_one] at h3
    exact ⟨q, e ▸ h1, h3⟩
  · rintro ⟨t, h1, h2⟩
    exact ⟨_, h1, ⟨t, fun x => by rw [aff_one]; rfl⟩, by rw [aff_one, h2]⟩

/-- A change of coordinates moves the points of full symmetry. -/
theorem SameKind.fullAt {S S' : (Pt → Pt) → Prop} (h : SameKind S S') {p : Pt} (hp : FullAt S p) : ∃ p', FullAt S' p' := by
  obtain ⟨a, d, q, hd, ha, h⟩ := h
  obtain ⟨b, e, s, he, hb, h1, h2⟩ := changeOfBasis_inv a d q hd ha
  refine ⟨changeOfBasis a d q p, fun f' hf' => ?_⟩
  have ef : changeOfBasis a d q ∘ (changeOfBasis b e s ∘ f' ∘ changeOfBasis a d q) = f' ∘ changeOfBasis a d q := by
    calc _ = (changeOfBasis a d q ∘ changeOfBasis b e s) ∘ f' ∘ changeOfBasis a d q := rfl
      _ = _ := by rw [h1]; rfl
  obtain ⟨t, ht, e1⟩ := hp _ ((h _ _ ef).2 hf')
  have et := conj_aff (a := a) (r := M3.one) (r' := M3.one) (d := d) (q := q) (t := t) (by rw [M3.one_mul, M3.mul_one]) rfl
  refine ⟨_, (h _ _ et).1 ht, ?_⟩
  have e2 := congrFun et ((changeOfBasis b e s ∘ f' ∘ changeOfBasis a d q) p)
  have e3 := congrFun ef p
  simp only [Function.comp_apply, aff_one] at e1 e2 e3
  rw [e1, e3] at e2
  exact e2.symm

theorem SameType.symmorphic {n n' : HallSymbolNotation} (h : SameType n n') : Symmorphic n ↔ Symmorphic n' := by
  rw [symmorphic_iff, symmorphic_iff]
  exact ⟨fun ⟨_, hp⟩ => SameKind.fullAt h hp, fun ⟨_, hp⟩ => SameKind.fullAt h.symm hp⟩

set_option maxRecDepth 100000 in
theorem first_rep_zero : classes.all (fun c => match c.reps[0]? with
    | some u => decide (u.a = V3.zero) && decide (u.b = V3.zero) && decide (u.c = V3.zero)
    | none => false) = true := by decide +kernel

theorem classes_length : classes.length = 73 := by decide +kernel

/-- A symmorphic notation has the first representative of its class. -/
theorem rep_of_symmorphic {n : HallSymbolNotation} (h : Symmorphic n) {c : Cls} {i : Nat} (hc : c ∈ classes) (hr : HasRep n c i) :
    HasRep n c 0 := by
  obtain ⟨p0, hp0⟩ := (symmorphic_iff n).1 h
  obtain ⟨u, -, S, hk, hS, a1, a2, a3⟩ := hr
  obtain ⟨p, hp⟩ := hk.fullAt hp0
  have hz : c.reps[0]? = some ⟨V3.zero, V3.zero, V3.zero⟩ := by
    have := List.all_eq_true.1 first_rep_zero c hc
    cases e : c.reps[0]? with
    | none => rw [e] at this; cases this
    | some u =>
      rw [e] at this
      simp only [Bool.and_eq_true, decide_eq_true_iff] at this
      obtain ⟨⟨h1, h2⟩, h3⟩ := this
      obtain ⟨a, b, c⟩ := u
      simp only [] at h1 h2 h3
      rw [h1, h2, h3]
  refine ⟨_, hz, Conj (changeOfBasis M3.one 1 (Pt.scale (-1) p)) S, hk.trans (sameKind_conj (by decide) (by decide)), ?_, ?_, ?_, ?_⟩
  · refine hS.conj (by decide) (by decide) (fun r hr => ⟨r, hr, ?_⟩) (fun r hr => ⟨r, hr, ?_⟩) ?_
    · rw [M3.one_mul, M3.mul_one]
    · rw [M3.one_mul, M3.mul_one]
    · intro t
      rw [one_onPt]
      have : Pt.scale (1 / (1 : Nat)) t = t := by simp [Pt.scale]
      rw [this]
  · exact moved hS hp a1
  · exact moved hS hp a2
  · exact moved hS hp a3
where
  moved {c : Cls} {S : (Pt → Pt) → Prop} (hS : SpaceLike S Integral c.grp) {p : Pt} (hp : FullAt S p) {g : M3} {v : Pt} (hv : S (aff g v)) :
      Conj (changeOfBasis M3.one 1 (Pt.scale (-1) p)) S (aff g (over c.m V3.zero)) := by
    obtain ⟨t, ht, e⟩ := hp _ hv
    refine ⟨_, hS.comp _ _ ht hv, ?_⟩
    rw [aff_one_comp]
    refine conj_aff (by rw [M3.one_mul, M3.mul_one]) ?_
    have hx := congrArg Pt.x e
    have hy := congrArg Pt.y e
    have hz := congrArg Pt.z e
    rw [one_onPt]
    simp only [aff, M3.onPt, Pt.plus, Pt.scale, over, V3.whole, V3.zero] at hx hy hz ⊢
    push_cast
    ext <;> simp only [] <;> linarith

/-- All matrix symbols of the notation are without translation, and so is the origin shift. -/
def noTranslations (n : HallSymbolNotation) : Bool :=
  decide (n.originShift.vec = V3.zero) && n.matrixSymbols.all fun s => match s.seitzMatrix with
    | some g => decide (g.tr = V3.zero)
    | none => true

/-- Without translations the origin has full symmetry. -/
theorem fullAt_origin {n : HallSymbolNotation} (h : noTranslations n = true) : FullAt (SpaceGroup n) ⟨0, 0, 0⟩ := by
  simp only [noTranslations, Bool.and_eq_true, decide_eq_true_iff, List.all_eq_true] at h
  obtain ⟨h0, hs⟩ := h
  have hS := spaceLike_own n
  have key : ∀ f, SpaceGroup n f → ∃ r t, f = aff r t ∧ SpaceGroup n (aff r ⟨0, 0, 0⟩) := by
    intro f hf
    have h1 : SpaceGroup n (aff M3.one ⟨0, 0, 0⟩) := own_whole n integral_zero
    induction hf with
    | one => exact ⟨M3.one, ⟨0, 0, 0⟩, funext fun x => by rw [aff_one]; simp [Pt.plus], h1⟩
    | cell k => exact ⟨M3.one, ⟨k.x, k.y, k.z⟩, funext fun x => by rw [aff_one]; rfl, h1⟩
    | @centring v hv =>
      exact ⟨M3.one, ⟨v.x / 12, v.y / 12, v.z / 12⟩, funext fun x => by rw [aff_one]; rfl, h1⟩
    | inversion hi =>
      have e : (fun p : Pt => (⟨-p.x, -p.y, -p.z⟩ : Pt)) = aff M3.one.neg ⟨0, 0, 0⟩ := by
        funext x
        simp [aff, M3.onPt, M3.neg, M3.one, Pt.plus]
      exact ⟨M3.one.neg, ⟨0, 0, 0⟩, e, e ▸ .inversion hi⟩
    | @generator s g hsm hg =>
      have := hs s hsm
      rw [hg] at this
      simp only [decide_eq_true_iff] at this
      have e : (fun p => (g.act (p.subTwelfths n.originShift.vec)).addTwelfths n.originShift.vec) = aff g.rot ⟨0, 0, 0⟩ := by
        funext x
        rw [h0]
        simp [aff, M3.onPt, Pt.plus, M4.act, this, Pt.subTwelfths, Pt.addTwelfths, V3.zero]
      exact ⟨g.rot, ⟨0, 0, 0⟩, e, e ▸ .generator hsm hg⟩
    | @comp f g hf hg ih ih' =>
      obtain ⟨r, t, rfl, h2⟩ := ih
      obtain ⟨r', t', rfl, h2'⟩ := ih'
      refine ⟨_, _, aff_comp r r' t t', ?_⟩
      have := h2.comp h2'
      rw [aff_comp] at this
      convert this using 2
      simp [M3.onPt, Pt.plus]
    | @inv f g hf e1 e2 ih =>
      obtain ⟨r, t, rfl, h2⟩ := ih
      obtain ⟨r', -, t', rfl⟩ := hS.ops g (hf.inv e1 e2)
      obtain ⟨k, hk, k1, k2⟩ := hS.inv _ h2
      obtain ⟨r3, -, t3, rfl⟩ := hS.ops k hk
      have hid : (id : Pt → Pt) = aff M3.one ⟨0, 0, 0⟩ := funext fun x => by rw [aff_one]; simp [Pt.plus]
      rw [aff_comp, hid] at e2 k1 k2
      have a1 := (aff_inj e2).1
      have a2 := (aff_inj k1).1
      have a3 := (aff_inj k2).2
      have e : r' = r3 := by
        calc r' = r'.mul (r.mul r3) := by rw [a2, M3.mul_one]
          _ = (r'.mul r).mul r3 := (M3.mul_assoc ..).symm
          _ = r3 := by rw [a1, M3.one_mul]
      have et : t3 = ⟨0, 0, 0⟩ := by
        rw [← a3]
        simp [M3.onPt, Pt.plus]
      exact ⟨r', t', rfl, by rw [e, ← et]; exact hk⟩
  intro f hf
  obtain ⟨r, t, rfl, h2⟩ := key f hf
  obtain ⟨k, hk, k1, k2⟩ := hS.inv _ hf
  have h3 := h2.comp hk
  obtain ⟨r3, -, t3, rfl⟩ := hS.ops k hk
  have hid : (id : Pt → Pt) = aff M3.one ⟨0, 0, 0⟩ := funext fun x => by rw [aff_one]; simp [Pt.plus]
  rw [aff_comp, hid] at k1
  obtain ⟨a1, a2⟩ := aff_inj k1
  rw [aff_comp, a1] at h3
  refine ⟨_, h3, ?_⟩
  simp only [aff, M3.onPt, Pt.plus]
  have hx := congrArg Pt.x a2
  have hy := congrArg Pt.y a2
  have hz := congrArg Pt.z a2
  simp only [M3.onPt, Pt.plus] at hx hy hz
  ext <;> simp only [] <;> linarith

/-- A row of the default table without translations. -/
def symmorphicRow (k : Nat) : Bool :=
  match defaultTable.getHall (k - 1) with
  | none => false
  | some h => match HallSymbolNotation.tryFromStr h.toList with
    | none => false
    | some n => noTranslations n

set_option maxRecDepth 100000 in
theorem symmorphicRows : symmorphicNumbers.all (fun k => Nat.ble 1 k && Nat.ble k 230 && symmorphicRow k) = true := by decide +kernel

theorem symmorphicNumbers_nodup : symmorphicNumbers.Nodup := by decide +kernel

theorem symmorphicNumbers_length : symmorphicNumbers.length = 73 := by decide +kernel

/-- C103. For every notation with general positions, consistent or not: the group has a point of full symmetry exactly when
its number is one of the 73. -/
theorem symmorphic_iff_number {n : HallSymbolNotation} {g : GeneralPositions} (hg : HasPositions n g) :
    Symmorphic n ↔ ∃ k ∈ symmorphicNumbers, HasTypeNumber n k := by
  have row : ∀ k ∈ symmorphicNumbers, 1 ≤ k ∧ ∃ h n', defaultTable.getHall (k - 1) = some h ∧
      HallSymbolNotation.tryFromStr h.toList = some n' ∧ Symmorphic n' := by
    intro k hk
    have := List.all_eq_true.1 symmorphicRows k hk
    simp only [Bool.and_eq_true, Nat.ble_eq, symmorphicRow] at this
    obtain ⟨⟨l1, -⟩, hr⟩ := this
    refine ⟨l1, ?_⟩
    split at hr
    · cases hr
    · rename_i h e
      split at hr
      · cases hr
      · rename_i n' e'
        exact ⟨h, n', e, e', (symmorphic_iff _).2 ⟨_, fullAt_origin hr⟩⟩
  constructor
  · intro hs
    classical
    have rowKey : ∀ i : Fin 73, ∃ k ∈ symmorphicNumbers, ∃ h n' code, symmorphicNumbers[i.1]? = some k ∧
        defaultTable.getHall (k - 1) = some h ∧ HallSymbolNotation.tryFromStr h.toList = some n' ∧
        defaultTable.getNumber (k - 1) = some code ∧ spaceGroupNumber code = k ∧
        ∃ j : Fin 73, ∃ c, classes[j.1]? = some c ∧ HasRep n' c 0 := by
      intro i
      have hi : i.1 < symmorphicNumbers.length := by rw [symmorphicNumbers_length]; exact i.2
      have hmem := List.getElem_mem hi
      obtain ⟨l1, h, n', e1, e2, e3⟩ := row _ hmem
      have l2 : symmorphicNumbers[i.1] ≤ 230 := by
        have := List.all_eq_true.1 symmorphicRows _ hmem
        simp only [Bool.and_eq_true, Nat.ble_eq] at this
        exact this.1.2
      obtain ⟨code, k1, k2⟩ := (every_number _ l1 l2).2
      obtain ⟨m, g', cc, -, h2, h3, -⟩ := tabulated_usable code h (.inr ⟨_, k1, e1⟩)
      rw [e2] at h2
      obtain rfl := Option.some.inj h2
      obtain ⟨⟨j, i'⟩, c, hc, hrep⟩ := key_exists h3
      have hj : j < 73 := by
        rw [← classes_length]
        exact (List.getElem?_eq_some_iff.1 hc).1
      exact ⟨_, hmem, h, n', code, List.getElem?_eq_getElem hi, e1, e2, k1, k2, ⟨j, hj⟩, c, hc,
        rep_of_symmorphic e3 (List.mem_of_getElem? hc) hrep⟩
    choose k hk h n' code hi e1 e2 e3 e4 j c hc hrep using rowKey
    have hinj : Function.Injective j := by
      intro a b e
      have ec : c a = c b := by
        have := hc a
        rw [e, hc b] at this
        exact (Option.some.inj this).symm
      have hst := same_rep (hrep a) (by rw [ec]; exact hrep b)
      have := (default_types_distinct (e1 a) (e1 b) (e2 a) (e2 b)).1 hst
      have ha := (row _ (hk a)).1
      have hb := (row _ (hk b)).1
      have hkk : k a = k b := by omega
      have hia := hi a
      rw [hkk, ← hi b] at hia
      have hl : ∀ i : Fin 73, i.1 < symmorphicNumbers.length := fun i => by rw [symmorphicNumbers_length]; exact i.2
      rw [List.getElem?_eq_getElem (hl a), List.getElem?_eq_getElem (hl b), Option.some.injEq,
        List.Nodup.getElem_inj_iff symmorphicNumbers_nodup] at hia
      exact Fin.ext hia
    obtain ⟨⟨j0, i0⟩, c0, hc0, hrep0⟩ := key_exists hg
    have hj : j0 < 73 := by
      rw [← classes_length]
      exact (List.getElem?_eq_some_iff.1 hc0).1
    obtain ⟨a, ha⟩ := (Finite.injective_iff_surjective.1 hinj) ⟨j0, hj⟩
    have ec : c0 = c a := by
      have := hc a
      rw [ha, hc0] at this
      exact Option.some.inj this
    have := rep_of_symmorphic hs (List.mem_of_getElem? hc0) hrep0
    exact ⟨k a, hk a, code a, h a, n' a, e3 a, e4 a, e1 a, e2 a, same_rep this (by rw [ec]; exact hrep a)⟩
  · rintro ⟨k, hk, code, h, n', e1, e2, e3, e4, e5⟩
    obtain ⟨-, h', m, f1, f2, f3⟩ := row k hk
    rw [e3] at f1
    obtain rfl := Option.some.inj f1
    rw [e4] at f2
    obtain rfl := Option.some.inj f2
    exact e5.symmorphic.2 f3

theorem full_iff_rotations {n : HallSymbolNotation} (p : Pt) : FullAt (SpaceGroup n) p ↔ SiteRotations n p = PointGroup n := by
  constructor
  · intro h
    refine (siteRotations_sub n p).antisymm ?_
    rintro r ⟨f, hf, m, rfl, rfl⟩
    obtain ⟨t, ht, e⟩ := h _ hf
    have hcomp := ht.comp hf
    obtain ⟨m', e', -, -⟩ := hcomp.isOp
    refine ⟨_, ⟨hcomp, by rw [Function.comp_apply, aff_one, e]⟩, m', ?_, e'⟩
    rw [M4.act_eq_aff m, aff_one_comp, M4.act_eq_aff m'] at e'
    exact (aff_inj e').1.symm
  · intro h f hf
    obtain ⟨m, rfl, -, -⟩ := hf.isOp
    have hr : m.rot ∈ SiteRotations n p := by rw [h]; exact ⟨_, hf, m, rfl, rfl⟩
    obtain ⟨f', ⟨h1, h2⟩, m', h3, rfl⟩ := hr
    have hS := spaceLike_own n
    rw [M4.act_eq_aff] at hf h1 h2 ⊢
    rw [h3] at h1 h2
    refine ⟨_, hS.diff h1 hf (u := Pt.plus ⟨m'.tr.x / 12, m'.tr.y / 12, m'.tr.z / 12⟩
      (Pt.scale (-1) ⟨m.tr.x / 12, m.tr.y / 12, m.tr.z / 12⟩)) ?_, ?_⟩
    · simp only [Pt.plus, Pt.scale]
      ext <;> simp only [] <;> ring
    · refine Eq.trans ?_ h2
      simp only [aff, Pt.plus, Pt.scale]
      ext <;> simp only [] <;> ring

/-- C103. For a consistent notation: some point is returned to its place, up to whole cells, by as many listed operations as
there are general positions, exactly when the number of the group is one of the 73; at no point is it by more. -/
theorem full_site_iff_number {n : HallSymbolNotation} {g : GeneralPositions} (hg : HasPositions n g) (hn : Consistent n) :
    ((∃ p, hits g.deriveFullSets.flatten p p = g.numOfGeneralPos) ↔ ∃ k ∈ symmorphicNumbers, HasTypeNumber n k) ∧
    ∀ p, hits g.deriveFullSets.flatten p p ≤ g.numOfGeneralPos := by
  have hfin := (pointGroup_rotations hg).1.finite
  have hnum : g.numOfGeneralPos = (PointGroup n).ncard := (positions_form_group hg hn).2.2.2
  refine ⟨?_, fun p => ?_⟩
  · rw [← symmorphic_iff_number hg, symmorphic_iff]
    refine exists_congr fun p => ?_
    rw [full_iff_rotations, hits_eq hg hn p, hnum]
    refine ⟨fun h => Set.eq_of_subset_of_ncard_le (siteRotations_sub n p) h.ge hfin, fun h => by rw [h]⟩
  · rw [hits_eq hg hn p, hnum]
    exact Set.ncard_le_ncard (siteRotations_sub n p) hfin

/-- The group of `P 4xu`, which has a screw axis, has number 76: no point has full symmetry, and every point is returned to
its place by fewer than the four listed operations. -/
example : HasPositions (hall "P 4xu") (positionsOf "P 4xu") ∧ Consistent (hall "P 4xu") ∧ ¬ Symmorphic (hall "P 4xu") ∧
    ∀ p, hits (positionsOf "P 4xu").deriveFullSets.flatten p p < (positionsOf "P 4xu").numOfGeneralPos := by
  have hn : Consistent (hall "P 4xu") := consistent_by_check (by decide +kernel)
  obtain ⟨hg, hk, -⟩ := sample_76
  generalize hall "P 4xu" = n at *
  generalize positionsOf "P 4xu" = g at *
  have no : ¬ ∃ k ∈ symmorphicNumbers, HasTypeNumber n k := by
    rintro ⟨k, hm, h⟩
    have := List.all_eq_true.1 symmorphicRows k hm
    simp only [Bool.and_eq_true, Nat.ble_eq] at this
    obtain rfl := (one_of_230_types hg).unique ⟨this.1, h⟩ ⟨by decide, hk⟩
    revert hm
    decide
  refine ⟨hg, hn, fun h => no ((symmorphic_iff_number hg).1 h), fun p => ?_⟩
  obtain ⟨h1, h2⟩ := full_site_iff_number hg hn
  exact lt_of_le_of_ne (h2 p) fun e => no (h1.1 ⟨p, e⟩)

/-- The group of `P 4x`, whose axis is not a screw axis, is one of the 73: at some point all four listed operations meet. -/
example : HasPositions (hall "P 4x") (positionsOf "P 4x") ∧ Consistent (hall "P 4x") ∧
    (∃ k ∈ symmorphicNumbers, HasTypeNumber (hall "P 4x") k) ∧
    ∃ p, hits (positionsOf "P 4x").deriveFullSets.flatten p p = (positionsOf "P 4x").numOfGeneralPos := by
  have hn : Consistent (hall "P 4x") := consistent_by_check (by decide +kernel)
  have hg : HasPositions (hall "P 4x") (positionsOf "P 4x") := positionsOf_spec (by decide +kernel)
  have hz : noTranslations (hall "P 4x") = true := by decide +kernel
  generalize hall "P 4x" = n at *
  generalize positionsOf "P 4x" = g at *
  have hk := (symmorphic_iff_number hg).1 ((symmorphic_iff n).2 ⟨_, fullAt_origin hz⟩)
  exact ⟨hg, hn, hk, (full_site_iff_number hg hn).1.2 hk⟩

end Verif
