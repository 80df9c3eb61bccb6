import Verif.Proofs.Lattice

/-! # Invariants of the closure loop -/

namespace Verif

/-! ## The rotation map -/

theorem RotMap.get_set (map : RotMap) (r : M3) (s : List V3) (q : M3) :
    RotMap.get (RotMap.set map r s) q = if q = r then some s else RotMap.get map q := by
  induction map with
  | nil => simp [RotMap.set, RotMap.get]
  | cons p rest ih =>
    obtain ⟨r', s'⟩ := p
    simp only [RotMap.set]
    by_cases h : r = r'
    · subst h
      simp only [if_true, RotMap.get]
      by_cases hq : q = r <;> simp [hq]
    · simp only [if_neg h, RotMap.get, ih]
      by_cases hq : q = r'
      · subst hq
        have : ¬ q = r := fun e => h e.symm
        simp [this]
      · simp [hq]

/-- The pairs of list elements that must not occur: same rotation, translations congruent modulo the lattice. -/
def SamePos (l : LatticeSymbol) (a b : M4) : Prop := a.rot = b.rot ∧ LatCong l a.tr b.tr

theorem SamePos.symm {l : LatticeSymbol} {a b : M4} (h : SamePos l a b) : SamePos l b a := ⟨h.1.symm, h.2.symm⟩

/-- The invariant of the closure state, relative to a property `C` of the operations in the list. -/
structure Inv (l : LatticeSymbol) (C : M4 → Prop) (st : GenState) : Prop where
  mapNone : ∀ r, st.map.get r = none ↔ ∀ m ∈ st.list, m.rot ≠ r
  mapSome : ∀ r s, st.map.get r = some s → ∀ v, v ∈ s ↔ ∃ m ∈ st.list, m.rot = r ∧ m.tr = v
  affine : ∀ m ∈ st.list, m.Affine
  red : ∀ m ∈ st.list, m.tr.Red
  distinct : st.list.Pairwise (fun a b => ¬ SamePos l a b)
  all : ∀ m ∈ st.list, C m

/-- `C` may not distinguish operations that differ by a lattice translation. -/
def LatStable (l : LatticeSymbol) (C : M4 → Prop) : Prop :=
  ∀ m t, m.Affine → C m → LatCong l t m.tr → C ⟨m.rot, t, m.bot, m.w⟩

theorem inv_empty (l : LatticeSymbol) (C : M4 → Prop) : Inv l C ⟨[], []⟩ where
  mapNone := by simp [RotMap.get]
  mapSome := by simp [RotMap.get]
  affine := by simp
  red := by simp
  distinct := List.Pairwise.nil
  all := by simp

theorem addToList_false {l : LatticeSymbol} {st : GenState} {m : M4} (h : (l.addToList st m).1 = false) :
    (l.addToList st m).2 = st := by
  unfold LatticeSymbol.addToList at *
  split
  · rename_i heq; rw [heq] at h; simp at h
  · rename_i heq
    rw [heq] at h
    simp only [] at h ⊢
    split
    · split
      · rfl
      · rename_i h1 h2; rw [if_pos h1, if_neg h2] at h; simp at h
    · rfl

theorem addToList_true {l : LatticeSymbol} {st : GenState} {m : M4} (h : (l.addToList st m).1 = true) :
    (l.addToList st m).2.list = st.list ++ [m.setTranslationPart (l.minimalRepr m.tr)] := by
  unfold LatticeSymbol.addToList at *
  split
  · rfl
  · rename_i heq
    rw [heq] at h
    simp only [] at h ⊢
    split
    · split
      · rename_i h1 h2; rw [if_pos h1, if_pos h2] at h; simp at h
      · rfl
    · rename_i h1; rw [if_neg h1] at h; simp at h

theorem addToList_prefix (l : LatticeSymbol) (st : GenState) (m : M4) :
    st.list <+: (l.addToList st m).2.list := by
  cases h : (l.addToList st m).1
  · rw [addToList_false h]; exact List.prefix_refl _
  · rw [addToList_true h]; exact List.prefix_append _ _

theorem addToList_length (l : LatticeSymbol) (st : GenState) (m : M4) :
    (l.addToList st m).2.list.length = st.list.length + (if (l.addToList st m).1 then 1 else 0) := by
  cases h : (l.addToList st m).1
  · rw [addToList_false h]; simp
  · rw [addToList_true h]; simp

/-- Offering a matrix leaves its rotation in the list. -/
theorem addToList_rot_mem {l : LatticeSymbol} {C : M4 → Prop} {st : GenState} (hi : Inv l C st) (m : M4) :
    ∃ e ∈ (l.addToList st m).2.list, e.rot = m.rot := by
  cases h : (l.addToList st m).1
  · rw [addToList_false h]
    unfold LatticeSymbol.addToList at h
    split at h
    · simp at h
    · rename_i s heq
      by_contra hne
      have : st.map.get m.rot = none := (hi.mapNone m.rot).2 (fun e he her => hne ⟨e, he, her⟩)
      simp only [M4.rotationPart] at heq
      rw [this] at heq
      simp at heq
  · rw [addToList_true h]
    exact ⟨_, List.mem_append_right _ (List.mem_singleton.2 rfl), rfl⟩

theorem addToList_inv {l : LatticeSymbol} {C : M4 → Prop} (hC : LatStable l C) {st : GenState} (hi : Inv l C st)
    {m : M4} (hm : m.Affine) (ha : m.tr.Above) (hc : C m) : Inv l C (l.addToList st m).2 := by
  cases hflag : (l.addToList st m).1
  · rw [addToList_false hflag]; exact hi
  have hlist := addToList_true hflag
  set t := l.minimalRepr m.tr with ht
  set m' := m.setTranslationPart t with hm'
  have hred : t.Red := minimalRepr_red l ha
  have hlat : LatCong l t m.tr := minimalRepr_latCong l m.tr
  -- the map after the call
  have hmap : ∃ s, (l.addToList st m).2.map = st.map.set m.rot s ∧
      (∀ v, v ∈ s ↔ v = t ∨ ∃ e ∈ st.list, e.rot = m.rot ∧ e.tr = v) ∧
      (∀ e ∈ st.list, e.rot = m.rot → ¬ LatCong l e.tr t) := by
    cases hget : st.map.get m.rot with
    | none =>
      have hn := (hi.mapNone m.rot).1 hget
      refine ⟨[t], ?_, ?_, ?_⟩
      · unfold LatticeSymbol.addToList; rw [hget]
      · intro v
        simp only [List.mem_singleton]
        constructor
        · exact fun h => .inl h
        · rintro (h | ⟨e, he, her, _⟩)
          · exact h
          · exact absurd her (hn e he)
      · intro e he her; exact absurd her (hn e he)
    | some s' =>
      have hdef : l.addToList st m = if l.translations.all (freshFor s' m.tr) then
          (if s'.contains t then (false, st)
            else (true, ⟨st.list ++ [m.setTranslationPart t], st.map.set m.rot (t :: s')⟩)) else (false, st) := by
        unfold LatticeSymbol.addToList; rw [hget]
      rw [hdef] at hflag
      by_cases hall : l.translations.all (freshFor s' m.tr) = true
      · by_cases hnc : s'.contains t = true
        · rw [if_pos hall, if_pos hnc] at hflag; simp at hflag
        · have hs := hi.mapSome m.rot s' hget
          refine ⟨t :: s', ?_, ?_, ?_⟩
          · rw [hdef, if_pos hall, if_neg hnc]
          · intro v
            rw [List.mem_cons, hs v]
          · rintro e he her hcong
            have h2 := hcong.trans hlat
            obtain ⟨tr, htr, hcc⟩ := h2
            rw [List.all_eq_true] at hall
            have h3 := hall tr htr
            simp only [freshFor, Bool.and_eq_true, Bool.not_eq_true', List.contains_eq_mem, decide_eq_false_iff_not]
              at h3
            apply h3.1
            rw [hs]
            refine ⟨e, he, her, ?_⟩
            have hr2 : ((m.tr.add tr).map positiveMod).Red := (ha.add (l.red htr)).red
            exact (hi.red e he).eq_of_cong hr2 (hcc.trans (cong_map_positiveMod _).symm)
      · rw [if_neg hall] at hflag; simp at hflag
  obtain ⟨s, hmap1, hmap2, hmap3⟩ := hmap
  have hmem : ∀ e, e ∈ (l.addToList st m).2.list ↔ e ∈ st.list ∨ e = m' := by
    intro e; rw [hlist]; simp
  have hm'rot : m'.rot = m.rot := rfl
  have hm'tr : m'.tr = t := rfl
  have hm'aff : m'.Affine := ⟨hm.1, rfl⟩
  refine ⟨?_, ?_, ?_, ?_, ?_, ?_⟩
  · intro r
    rw [hmap1, RotMap.get_set]
    by_cases hr : r = m.rot
    · rw [if_pos hr]
      simp only [reduceCtorEq, false_iff]
      intro h
      exact h m' ((hmem m').2 (.inr rfl)) (hm'rot.trans hr.symm)
    · rw [if_neg hr, hi.mapNone]
      constructor
      · intro h e he
        rcases (hmem e).1 he with h1 | h1
        · exact h e h1
        · rw [h1]; exact fun e' => hr (e'.symm.trans hm'rot)
      · intro h e he
        exact h e ((hmem e).2 (.inl he))
  · intro r q hq v
    rw [hmap1, RotMap.get_set] at hq
    by_cases hr : r = m.rot
    · rw [if_pos hr] at hq
      obtain rfl := Option.some.inj hq
      rw [hmap2]
      constructor
      · rintro (h | ⟨e, he, h1, h2⟩)
        · exact ⟨m', (hmem m').2 (.inr rfl), hr.symm ▸ hm'rot, by rw [hm'tr, h]⟩
        · exact ⟨e, (hmem e).2 (.inl he), hr ▸ h1, h2⟩
      · rintro ⟨e, he, h1, h2⟩
        rcases (hmem e).1 he with h3 | h3
        · exact .inr ⟨e, h3, hr ▸ h1, h2⟩
        · left; rw [← h2, h3, hm'tr]
    · rw [if_neg hr] at hq
      rw [hi.mapSome r q hq v]
      constructor
      · rintro ⟨e, he, h1, h2⟩; exact ⟨e, (hmem e).2 (.inl he), h1, h2⟩
      · rintro ⟨e, he, h1, h2⟩
        rcases (hmem e).1 he with h3 | h3
        · exact ⟨e, h3, h1, h2⟩
        · exfalso; apply hr; rw [← h1, h3, hm'rot]
  · intro e he
    rcases (hmem e).1 he with h | h
    · exact hi.affine e h
    · rw [h]; exact hm'aff
  · intro e he
    rcases (hmem e).1 he with h | h
    · exact hi.red e h
    · rw [h]; exact hred
  · rw [hlist, List.pairwise_append]
    refine ⟨hi.distinct, List.pairwise_singleton _ _, ?_⟩
    intro a ha' b hb hsp
    rw [List.mem_singleton.1 hb] at hsp
    exact hmap3 a ha' hsp.1 hsp.2
  · intro e he
    rcases (hmem e).1 he with h | h
    · exact hi.all e h
    · rw [h]
      have := hC m t hm hc hlat
      rw [hm.2] at this
      exact this

/-! ## The loops -/

theorem inner_prefix (l : LatticeSymbol) (i : M4) (js : List M4) (st : GenState) :
    st.list <+: (l.inner i js st).list := by
  induction js generalizing st with
  | nil => exact List.prefix_refl _
  | cons j js ih =>
    unfold LatticeSymbol.inner
    have hp := addToList_prefix l st (i.mul j)
    split
    · rename_i h; rw [h] at hp; exact hp
    · rename_i h; rw [h] at hp; exact hp.trans (ih _)

theorem inner_inv {l : LatticeSymbol} {C : M4 → Prop} (hC : LatStable l C) (i : M4) (js : List M4) (st : GenState)
    (hi : Inv l C st) (hm : ∀ j ∈ js, (i.mul j).Affine ∧ C (i.mul j)) : Inv l C (l.inner i js st) := by
  induction js generalizing st with
  | nil => exact hi
  | cons j js ih =>
    unfold LatticeSymbol.inner
    obtain ⟨h1, h2⟩ := hm j (List.mem_cons_self ..)
    have hp := addToList_inv hC hi h1 (above_map_tmod _) h2
    split
    · rename_i h; rw [h] at hp; exact hp
    · rename_i h; rw [h] at hp
      exact ih _ hp (fun j' hj' => hm j' (List.mem_cons_of_mem _ hj'))

/-- When the inner loop does not add anything, it refused every product and left the state unchanged. -/
theorem inner_stuck (l : LatticeSymbol) (i : M4) (js : List M4) (st : GenState)
    (h : (l.inner i js st).list.length = st.list.length) :
    l.inner i js st = st ∧ ∀ j ∈ js, (l.addToList st (i.mul j)).1 = false := by
  induction js generalizing st with
  | nil => exact ⟨rfl, by simp⟩
  | cons j js ih =>
    unfold LatticeSymbol.inner at h ⊢
    have hlen := addToList_length l st (i.mul j)
    split at h
    · rename_i st' heq
      rw [heq] at hlen
      simp only [if_true] at hlen
      omega
    · rename_i st' heq
      have hf : (l.addToList st (i.mul j)).1 = false := by rw [heq]
      have hst : st' = st := by have := addToList_false hf; rw [heq] at this; exact this
      subst hst
      obtain ⟨e, hall⟩ := ih st' h
      constructor
      · exact e
      · intro j' hj'
        rcases List.mem_cons.1 hj' with h' | h'
        · rw [h']; exact hf
        · exact hall j' h'

/-- The outer loop over a list `is`, the inner one over `js`. -/
def outer (l : LatticeSymbol) (js : List M4) (is : List M4) (st : GenState) : GenState :=
  is.foldl (fun acc i => l.inner i js acc) st

theorem round_eq (l : LatticeSymbol) (st : GenState) : l.round st = outer l (st.list.drop 1) (st.list.drop 1) st := rfl

theorem outer_prefix (l : LatticeSymbol) (js is : List M4) (st : GenState) :
    st.list <+: (outer l js is st).list := by
  induction is generalizing st with
  | nil => exact List.prefix_refl _
  | cons i is ih => exact (inner_prefix l i js st).trans (ih _)

theorem outer_inv {l : LatticeSymbol} {C : M4 → Prop} (hC : LatStable l C) (js is : List M4) (st : GenState)
    (hi : Inv l C st) (hm : ∀ i ∈ is, ∀ j ∈ js, (i.mul j).Affine ∧ C (i.mul j)) : Inv l C (outer l js is st) := by
  induction is generalizing st with
  | nil => exact hi
  | cons i is ih =>
    exact ih _ (inner_inv hC i js st hi (hm i (List.mem_cons_self ..)))
      (fun i' hi' => hm i' (List.mem_cons_of_mem _ hi'))

theorem outer_stuck (l : LatticeSymbol) (js is : List M4) (st : GenState)
    (h : (outer l js is st).list.length = st.list.length) :
    ∀ i ∈ is, ∀ j ∈ js, (l.addToList st (i.mul j)).1 = false := by
  induction is generalizing st with
  | nil => simp
  | cons i is ih =>
    have h1 := (inner_prefix l i js st).length_le
    have h2 := (outer_prefix l js is (l.inner i js st)).length_le
    have h' : (outer l js is (l.inner i js st)).list.length = st.list.length := h
    obtain ⟨e, hall⟩ := inner_stuck l i js st (by omega)
    intro i' hi'
    rcases List.mem_cons.1 hi' with h3 | h3
    · rw [h3]; exact hall
    · rw [e] at h'; exact ih st h' i' h3

/-- `C` is closed under the product. -/
def MulStable (C : M4 → Prop) : Prop := ∀ a b, a.Affine → b.Affine → C a → C b → C (a.mul b)

theorem round_inv {l : LatticeSymbol} {C : M4 → Prop} (hC : LatStable l C) (hM : MulStable C) {st : GenState}
    (hi : Inv l C st) : Inv l C (l.round st) := by
  rw [round_eq]
  refine outer_inv hC _ _ st hi (fun i hi' j hj' => ?_)
  have h1 := List.mem_of_mem_drop hi'
  have h2 := List.mem_of_mem_drop hj'
  exact ⟨(hi.affine i h1).mul (hi.affine j h2),
    hM i j (hi.affine i h1) (hi.affine j h2) (hi.all i h1) (hi.all j h2)⟩

theorem round_prefix (l : LatticeSymbol) (st : GenState) : st.list <+: (l.round st).list := by
  rw [round_eq]; exact outer_prefix ..

theorem rounds_inv {l : LatticeSymbol} {C : M4 → Prop} (hC : LatStable l C) (hM : MulStable C) (fuel : Nat)
    {st st' : GenState} (hi : Inv l C st) (h : l.rounds fuel st = some st') :
    Inv l C st' ∧ st.list <+: st'.list ∧
      ∀ i ∈ st'.list.drop 1, ∀ j ∈ st'.list.drop 1, (l.addToList st' (i.mul j)).1 = false := by
  induction fuel generalizing st with
  | zero => simp [LatticeSymbol.rounds] at h
  | succ fuel ih =>
    unfold LatticeSymbol.rounds at h
    simp only [] at h
    split at h
    · obtain ⟨h1, h2, h3⟩ := ih (round_inv hC hM hi) h
      exact ⟨h1, (round_prefix l st).trans h2, h3⟩
    · rename_i hlen
      obtain rfl := Option.some.inj h
      refine ⟨hi, List.prefix_refl _, ?_⟩
      have := (round_prefix l st).length_le
      rw [round_eq] at this hlen
      exact outer_stuck l _ _ st (by omega)

end Verif
