import Mathlib.Data.Set.Card
import Mathlib.Data.Set.Finite.Basic
import Mathlib.Data.Fintype.Card
import Verif.Proofs.Closure
import Verif.Proofs.SymbolFacts

/-! # The space group of a symbol and the state of the closure loop -/

namespace Verif

/-- `f` is given by an integer matrix with unimodular rotation part. -/
def IsOp (f : Pt → Pt) (g : M4) : Prop := f = g.act ∧ g.Affine ∧ g.rot.Unimod

theorem SpaceGroup.isOp {n : HallSymbolNotation} {f : Pt → Pt} (h : SpaceGroup n f) : ∃ g, IsOp f g := by
  induction h with
  | one => exact ⟨trMat V3.zero, by rw [trMat, M4.act_mk_one _ _ _ rfl], ⟨rfl, rfl⟩, .one⟩
  | cell k => exact ⟨trMat (V3.smul 12 k), cell_act k, ⟨rfl, rfl⟩, .one⟩
  | centring hv => exact ⟨trMat _, (trMat_act _).symm, ⟨rfl, rfl⟩, .one⟩
  | inversion _ => exact ⟨M4.inversion, inversion_act, ⟨rfl, rfl⟩, .inr (by decide)⟩
  | generator _ hg =>
    have hu := seitzMatrix_unimod hg
    exact ⟨_, shifted_act _ _, ⟨rfl, rfl⟩, hu⟩
  | comp _ _ ih1 ih2 =>
    obtain ⟨a, rfl, ha, hau⟩ := ih1
    obtain ⟨b, rfl, hb, hbu⟩ := ih2
    exact ⟨_, M4.act_comp a b, ⟨rfl, rfl⟩, hau.mul hbu⟩
  | @inv f g _ h1 h2 ih =>
    obtain ⟨a, rfl, ha, hau⟩ := ih
    refine ⟨a.uinv, ?_, ⟨rfl, rfl⟩, hau.uinv⟩
    calc g = (a.uinv.act ∘ a.act) ∘ g := by rw [M4.uinv_act hau]; rfl
      _ = a.uinv.act ∘ (a.act ∘ g) := rfl
      _ = a.uinv.act := by rw [h1]; rfl

theorem SpaceGroup.unimod {n : HallSymbolNotation} {m : M4} (h : SpaceGroup n m.act) : m.rot.Unimod := by
  obtain ⟨g, e, _, hu⟩ := h.isOp
  rw [(M4.act_inj e).1]; exact hu

theorem SpaceGroup.uinv {n : HallSymbolNotation} {m : M4} (h : SpaceGroup n m.act) : SpaceGroup n m.uinv.act :=
  h.inv (M4.act_uinv h.unimod) (M4.uinv_act h.unimod)

theorem SpaceGroup.lattice {n : HallSymbolNotation} {τ : Pt → Pt} (h : IsLatticeTranslation n.latticeSymbol τ) :
    SpaceGroup n τ := by
  obtain ⟨v, hv, k, hp⟩ := h
  have e : τ = (fun p : Pt => p.addCell k) ∘ (fun p : Pt => p.addTwelfths v) := by funext p; exact hp p
  rw [e]
  exact (SpaceGroup.cell k).comp (SpaceGroup.centring hv)

theorem isTranslation_trMat (v : V3) : IsTranslation (trMat v).act :=
  ⟨⟨v.x / 12, v.y / 12, v.z / 12⟩, fun p => by rw [trMat_act]; rfl⟩

/-- In a consistent symbol, two operations of the group with the same rotation differ by a lattice translation. -/
theorem Consistent.latCong {n : HallSymbolNotation} (hn : Consistent n) {a b : M4} (ha : SpaceGroup n a.act)
    (hb : SpaceGroup n b.act) (h : a.rot = b.rot) : LatCong n.latticeSymbol a.tr b.tr := by
  have h1 := act_comp_uinv_same_rot h hb.unimod
  have h2 : SpaceGroup n (trMat (a.tr.sub b.tr)).act := by rw [← h1]; exact ha.comp hb.uinv
  have h3 := (isLatticeTranslation_iff _ _).1 (hn _ h2 (isTranslation_trMat _))
  obtain ⟨w, hw, hc⟩ := h3
  refine ⟨w, hw, ?_⟩
  obtain ⟨c1, c2, c3⟩ := hc
  simp only [V3.add_x, V3.add_y, V3.add_z, V3.sub_x, V3.sub_y, V3.sub_z, V3.zero] at c1 c2 c3
  refine ⟨?_, ?_, ?_⟩ <;> simp only [V3.add_x, V3.add_y, V3.add_z] <;> omega

/-! ## The property carried through the loop -/

/-- The matrix denotes an operation of the group. -/
def InGroup (n : HallSymbolNotation) (m : M4) : Prop := SpaceGroup n m.act

theorem inGroup_latStable (n : HallSymbolNotation) : LatStable n.latticeSymbol (InGroup n) := by
  intro m t _ hm ht
  obtain ⟨τ, hτ, e⟩ := eq_lattice_comp (l := n.latticeSymbol) (a := ⟨m.rot, t, m.bot, m.w⟩) (b := m) rfl ht
  unfold InGroup
  rw [e]
  exact (SpaceGroup.lattice hτ).comp hm

theorem inGroup_mulStable (n : HallSymbolNotation) : MulStable (InGroup n) := by
  intro a b ha hb h1 h2
  have hc := M4.mul_tr_cong (a := a) hb
  obtain ⟨τ, hτ, e⟩ := eq_lattice_comp (l := n.latticeSymbol) (a := a.mul b)
    (b := ⟨a.rot.mul b.rot, (a.rot.mulVec b.tr).add a.tr, V3.zero, 1⟩) (M4.mul_rot hb) (.of_cong _ hc)
  unfold InGroup
  rw [e, ← M4.act_comp]
  exact (SpaceGroup.lattice hτ).comp (h1.comp h2)

/-! ## The start of the loop -/

/-- Offering a list of matrices one after the other. -/
def offer (l : LatticeSymbol) (ms : List M4) (st : GenState) : GenState :=
  ms.foldl (fun st m => (l.addToList st m).2) st

theorem offer_prefix (l : LatticeSymbol) (ms : List M4) (st : GenState) : st.list <+: (offer l ms st).list := by
  induction ms generalizing st with
  | nil => exact List.prefix_refl _
  | cons m ms ih => exact (addToList_prefix l st m).trans (ih _)

theorem offer_inv {l : LatticeSymbol} {C : M4 → Prop} (hC : LatStable l C) (ms : List M4) (st : GenState)
    (hi : Inv l C st) (hm : ∀ m ∈ ms, m.Affine ∧ m.tr.Above ∧ C m) : Inv l C (offer l ms st) := by
  induction ms generalizing st with
  | nil => exact hi
  | cons m ms ih =>
    obtain ⟨h1, h2, h3⟩ := hm m (List.mem_cons_self ..)
    exact ih _ (addToList_inv hC hi h1 h2 h3) (fun m' h' => hm m' (List.mem_cons_of_mem _ h'))

theorem offer_rot_mem {l : LatticeSymbol} {C : M4 → Prop} (hC : LatStable l C) (ms : List M4) (st : GenState)
    (hi : Inv l C st) (hm : ∀ m ∈ ms, m.Affine ∧ m.tr.Above ∧ C m) :
    ∀ m ∈ ms, ∃ e ∈ (offer l ms st).list, e.rot = m.rot := by
  induction ms generalizing st with
  | nil => simp
  | cons m ms ih =>
    obtain ⟨h1, h2, h3⟩ := hm m (List.mem_cons_self ..)
    have hi' := addToList_inv hC hi h1 h2 h3
    intro m' hm'
    rcases List.mem_cons.1 hm' with rfl | h
    · obtain ⟨e, he, her⟩ := addToList_rot_mem hi m'
      exact ⟨e, (offer_prefix l ms _).subset he, her⟩
    · exact ih _ hi' (fun m' h' => hm m' (List.mem_cons_of_mem _ h')) m' h

theorem startState_eq (n : HallSymbolNotation) (ms : List M4) :
    n.startState ms = offer n.latticeSymbol (ms.map n.originShift.shiftedMatrix)
      (offer n.latticeSymbol n.latticeSymbol.seitzMatrices ⟨[], []⟩) := by
  unfold HallSymbolNotation.startState offer
  rw [List.foldl_map]

theorem addV_act (m : M4) (v : V3) (l : LatticeSymbol) (hv : v ∈ l.translations) :
    ∃ τ, IsLatticeTranslation l τ ∧ (m.addV v).act = τ ∘ m.act := by
  exact eq_lattice_comp (a := m.addV v) (b := m) rfl ⟨v, hv, V3.cong_map_tmod _⟩

theorem latticeMatrices_facts (n : HallSymbolNotation) :
    ∀ m ∈ n.latticeSymbol.seitzMatrices, m.Affine ∧ m.tr.Above ∧ InGroup n m := by
  intro m hm
  have key : ∀ v ∈ n.latticeSymbol.translations, ∀ b : M4, b.Affine → SpaceGroup n b.act →
      (b.addV v).Affine ∧ (b.addV v).tr.Above ∧ InGroup n (b.addV v) := by
    intro v hv b hb hs
    obtain ⟨τ, hτ, e⟩ := addV_act b v _ hv
    exact ⟨hb, above_map_tmod _, by unfold InGroup; rw [e]; exact (SpaceGroup.lattice hτ).comp hs⟩
  have hid : SpaceGroup n M4.identity.act := by
    have : M4.identity.act = id := M4.act_mk_one _ _ _ rfl
    rw [this]; exact .one
  unfold LatticeSymbol.seitzMatrices at hm
  split at hm
  · rename_i hminus
    obtain ⟨v, hv, hm⟩ := List.mem_flatMap.1 hm
    have hinv : SpaceGroup n M4.inversion.act := by rw [← inversion_act]; exact .inversion hminus
    simp only [List.mem_cons, List.not_mem_nil, or_false] at hm
    rcases hm with rfl | rfl
    · exact key v hv _ ⟨rfl, rfl⟩ hid
    · exact key v hv _ ⟨rfl, rfl⟩ hinv
  · obtain ⟨v, hv, rfl⟩ := List.mem_map.1 hm
    exact key v hv _ ⟨rfl, rfl⟩ hid

theorem seitzMatrices_mem {n : HallSymbolNotation} {ms : List M4} (h : n.seitzMatrices = some ms) :
    (∀ m ∈ ms, ∃ s ∈ n.matrixSymbols, s.seitzMatrix = some m) ∧
    (∀ s ∈ n.matrixSymbols, ∃ m ∈ ms, s.seitzMatrix = some m) := by
  unfold HallSymbolNotation.seitzMatrices at h
  generalize n.matrixSymbols = l at h
  induction l generalizing ms with
  | nil => simp at h; subst h; simp
  | cons s l ih =>
    rw [List.mapM_cons] at h
    cases hs : s.seitzMatrix with
    | none => rw [hs] at h; simp at h
    | some m =>
      rw [hs] at h
      cases hl : l.mapM MatrixSymbol.seitzMatrix with
      | none => rw [hl] at h; simp at h
      | some ms' =>
        rw [hl] at h
        simp at h
        subst h
        obtain ⟨i1, i2⟩ := ih hl
        constructor
        · intro m' hm'
          rcases List.mem_cons.1 hm' with rfl | h'
          · exact ⟨s, List.mem_cons_self .., hs⟩
          · obtain ⟨s', h1, h2⟩ := i1 m' h'; exact ⟨s', List.mem_cons_of_mem _ h1, h2⟩
        · intro s' hs'
          rcases List.mem_cons.1 hs' with rfl | h'
          · exact ⟨m, List.mem_cons_self .., hs⟩
          · obtain ⟨m', h1, h2⟩ := i2 s' h'; exact ⟨m', List.mem_cons_of_mem _ h1, h2⟩

theorem shifted_inGroup {n : HallSymbolNotation} {s : MatrixSymbol} {g : M4} (hs : s ∈ n.matrixSymbols)
    (hg : s.seitzMatrix = some g) : (n.originShift.shiftedMatrix g).Affine ∧
      (n.originShift.shiftedMatrix g).tr.Above ∧ InGroup n (n.originShift.shiftedMatrix g) := by
  obtain ⟨h1, h2, h3⟩ := shiftedMatrix_facts n.originShift (seitzMatrix_affine hg).1
  refine ⟨h1, by rw [h3]; exact above_map_positiveMod _, ?_⟩
  have hgen := SpaceGroup.generator (n := n) hs hg
  rw [shifted_act] at hgen
  obtain ⟨τ, hτ, e⟩ := eq_lattice_comp (l := n.latticeSymbol) (a := n.originShift.shiftedMatrix g)
    (b := ⟨g.rot, (g.tr.sub (g.rot.mulVec n.originShift.vec)).add n.originShift.vec, V3.zero, 1⟩) h2
    (.of_cong _ (by rw [h3]; exact cong_map_positiveMod _))
  unfold InGroup
  rw [e]
  exact (SpaceGroup.lattice hτ).comp hgen

theorem latticeStart_prefix (l : LatticeSymbol) :
    (if l.minusSign then [M4.identity, M4.inversion] else [M4.identity]) <+:
      (offer l l.seitzMatrices ⟨[], []⟩).list := by
  obtain ⟨b, c⟩ := l
  cases b <;> cases c <;> decide +kernel

/-- What is known about the state in which the loop stops. -/
structure Final (n : HallSymbolNotation) (st : GenState) : Prop where
  inv : Inv n.latticeSymbol (InGroup n) st
  start : (if n.latticeSymbol.minusSign then [M4.identity, M4.inversion] else [M4.identity]) <+: st.list
  gens : ∀ s ∈ n.matrixSymbols, ∃ g, s.seitzMatrix = some g ∧ ∃ e ∈ st.list, e.rot = g.rot
  closed : ∀ a ∈ st.list, ∀ b ∈ st.list, ∃ c ∈ st.list, c.rot = a.rot.mul b.rot

theorem start_inv {n : HallSymbolNotation} {ms : List M4} (h : n.seitzMatrices = some ms) :
    Inv n.latticeSymbol (InGroup n) (n.startState ms) ∧
    (if n.latticeSymbol.minusSign then [M4.identity, M4.inversion] else [M4.identity]) <+: (n.startState ms).list ∧
    ∀ s ∈ n.matrixSymbols, ∃ g, s.seitzMatrix = some g ∧ ∃ e ∈ (n.startState ms).list, e.rot = g.rot := by
  obtain ⟨h1, h2⟩ := seitzMatrices_mem h
  have hC := inGroup_latStable n
  have i0 := offer_inv hC _ _ (inv_empty _ _) (latticeMatrices_facts n)
  have hm : ∀ m ∈ ms.map n.originShift.shiftedMatrix, m.Affine ∧ m.tr.Above ∧ InGroup n m := by
    intro m hm
    obtain ⟨g, hg, rfl⟩ := List.mem_map.1 hm
    obtain ⟨s, hs, hsg⟩ := h1 g hg
    exact shifted_inGroup hs hsg
  rw [startState_eq]
  refine ⟨offer_inv hC _ _ i0 hm, (latticeStart_prefix _).trans (offer_prefix _ _ _), ?_⟩
  intro s hs
  obtain ⟨g, hg, hsg⟩ := h2 s hs
  obtain ⟨e, he, her⟩ := offer_rot_mem hC _ _ i0 hm _ (List.mem_map_of_mem hg)
  exact ⟨g, hsg, e, he, her.trans (shiftedMatrix_facts _ (seitzMatrix_affine hsg).1).2.1⟩

theorem final_of_rounds {n : HallSymbolNotation} {ms : List M4} {fuel : Nat} {st : GenState}
    (h : n.seitzMatrices = some ms) (hr : n.latticeSymbol.rounds fuel (n.startState ms) = some st) : Final n st := by
  obtain ⟨i, p, g⟩ := start_inv h
  obtain ⟨i', p', hstop⟩ := rounds_inv (inGroup_latStable n) (inGroup_mulStable n) fuel i hr
  have hstart := p.trans p'
  refine ⟨i', hstart, ?_, ?_⟩
  · intro s hs
    obtain ⟨g', h1, e, he, h2⟩ := g s hs
    exact ⟨g', h1, e, p'.subset he, h2⟩
  · have hcons : ∃ rest, st.list = M4.identity :: rest := by
      obtain ⟨t, ht⟩ := hstart
      split at ht
      · exact ⟨_, ht.symm⟩
      · exact ⟨_, ht.symm⟩
    obtain ⟨rest, hrest⟩ := hcons
    rw [hrest, List.drop_succ_cons, List.drop_zero] at hstop
    intro a ha b hb
    have ha' := ha
    have hb' := hb
    rw [hrest] at ha' hb'
    rcases List.mem_cons.1 ha' with rfl | ha'
    · exact ⟨b, hb, (M3.one_mul _).symm⟩
    rcases List.mem_cons.1 hb' with rfl | hb'
    · exact ⟨a, ha, (M3.mul_one _).symm⟩
    have hf := hstop a ha' b hb'
    obtain ⟨e, he, her⟩ := addToList_rot_mem i' (a.mul b)
    rw [addToList_false hf] at he
    exact ⟨e, he, her.trans (M4.mul_rot (i'.affine b hb))⟩

/-! ## The point group -/

theorem Final.identity_mem {n : HallSymbolNotation} {st : GenState} (h : Final n st) : M4.identity ∈ st.list := by
  have := h.start
  split at this
  · exact this.subset (List.mem_cons_self ..)
  · exact this.subset (List.mem_cons_self ..)

theorem Final.inversion_mem {n : HallSymbolNotation} {st : GenState} (h : Final n st)
    (hm : n.latticeSymbol.minusSign = true) : M4.inversion ∈ st.list := by
  have := h.start
  rw [if_pos hm] at this
  exact this.subset (by simp)

/-- Powers of a matrix in a finite product-closed set of unimodular matrices hit the identity. -/
theorem uinv_mem_of_finite {S : Set M3} (hS : S.Finite) (hmul : ∀ a ∈ S, ∀ b ∈ S, a.mul b ∈ S) (h1 : M3.one ∈ S)
    {a : M3} (ha : a ∈ S) (hu : a.Unimod) : a.uinv ∈ S := by
  have hinj : Set.InjOn (fun x => M3.mul x a) S := fun x _ y _ e => M3.mul_right_cancel hu e
  have hmaps : Set.MapsTo (fun x => M3.mul x a) S S := fun x hx => hmul x hx a ha
  have hsurj := ((hS.injOn_iff_bijOn_of_mapsTo hmaps).1 hinj).surjOn
  obtain ⟨x, hx, e⟩ := hsurj h1
  have : x = a.uinv := M3.mul_right_cancel hu (by rw [M3.uinv_mul hu]; exact e)
  rw [← this]; exact hx

/-- The rotation parts in the final list. -/
def rotSet (l : List M4) : Set M3 := {r | ∃ m ∈ l, m.rot = r}

theorem rotSet_finite (l : List M4) : (rotSet l).Finite := by
  have : rotSet l = (M4.rot) '' {m | m ∈ l} := by
    ext r; simp [rotSet]
  rw [this]
  exact (List.finite_toSet l).image _

end Verif
