import Mathlib.Order.Interval.Finset.Basic
import Mathlib.Order.Interval.Set.Basic
import Mathlib.Data.Int.Interval
import Verif.Proofs.SpaceGroup

/-! # Consequences for the final list: point group, completeness, termination -/

namespace Verif

theorem Final.rot_of_group {n : HallSymbolNotation} {st : GenState} (h : Final n st) {f : Pt → Pt}
    (hf : SpaceGroup n f) : ∀ g : M4, f = g.act → g.rot ∈ rotSet st.list := by
  have one_mem : M3.one ∈ rotSet st.list := ⟨_, h.identity_mem, rfl⟩
  have hmul : ∀ a ∈ rotSet st.list, ∀ b ∈ rotSet st.list, a.mul b ∈ rotSet st.list := by
    rintro _ ⟨a, ha, rfl⟩ _ ⟨b, hb, rfl⟩
    exact h.closed a ha b hb
  have huni : ∀ a ∈ rotSet st.list, a.Unimod := by
    rintro _ ⟨a, ha, rfl⟩
    exact SpaceGroup.unimod (h.inv.all a ha)
  induction hf with
  | one =>
    intro g e
    have e' : (trMat V3.zero).act = g.act := by rw [← e, trMat, M4.act_mk_one _ _ _ rfl]
    rw [← (M4.act_inj e').1]; exact one_mem
  | cell k =>
    intro g e
    rw [cell_act] at e
    rw [← (M4.act_inj e).1]; exact one_mem
  | centring hv =>
    intro g e
    rw [← trMat_act] at e
    rw [← (M4.act_inj e).1]; exact one_mem
  | inversion hm =>
    intro g e
    rw [inversion_act] at e
    rw [← (M4.act_inj e).1]; exact ⟨_, h.inversion_mem hm, rfl⟩
  | @generator s g' hs hg =>
    intro g e
    rw [shifted_act] at e
    rw [← (M4.act_inj e).1]
    obtain ⟨g'', h1, e', he, h2⟩ := h.gens s hs
    rw [hg] at h1
    obtain rfl := Option.some.inj h1
    exact ⟨e', he, h2⟩
  | comp h1 h2 ih1 ih2 =>
    intro g e
    obtain ⟨a, rfl, _, _⟩ := h1.isOp
    obtain ⟨b, rfl, _, _⟩ := h2.isOp
    rw [M4.act_comp] at e
    rw [← (M4.act_inj e).1]
    exact hmul _ (ih1 a rfl) _ (ih2 b rfl)
  | @inv f f' h0 h1 h2 ih =>
    intro g e
    obtain ⟨a, rfl, _, hu⟩ := h0.isOp
    subst e
    rw [M4.act_comp] at h1
    have e1 : (trMat V3.zero).act = id := M4.act_mk_one _ _ _ rfl
    have h3 := (M4.act_inj (h1.trans e1.symm)).1
    have h4 : g.rot = a.rot.uinv := M3.mul_left_cancel hu (by rw [M3.mul_uinv hu]; exact h3)
    rw [h4]
    exact uinv_mem_of_finite (rotSet_finite _) hmul one_mem (ih a rfl) hu

/-- The rotations of the final list are exactly the point group. -/
theorem Final.pointGroup {n : HallSymbolNotation} {st : GenState} (h : Final n st) : PointGroup n = rotSet st.list := by
  ext r
  constructor
  · rintro ⟨f, hf, m, rfl, rfl⟩
    exact h.rot_of_group hf m rfl
  · rintro ⟨m, hm, rfl⟩
    exact ⟨m.act, h.inv.all m hm, m, rfl, rfl⟩

/-- Completeness for consistent symbols. -/
theorem Final.complete {n : HallSymbolNotation} {st : GenState} (h : Final n st) (hn : Consistent n) {f : Pt → Pt}
    (hf : SpaceGroup n f) : ListedModLattice n.latticeSymbol st.list f := by
  obtain ⟨g, rfl, _, _⟩ := hf.isOp
  obtain ⟨m, hm, hr⟩ := h.rot_of_group hf g rfl
  obtain ⟨τ, hτ, e⟩ := eq_lattice_comp hr.symm (hn.latCong hf (h.inv.all m hm) hr.symm)
  exact ⟨m, hm, τ, hτ, e⟩

/-- For consistent symbols no rotation is listed twice. -/
theorem Final.rot_nodup {n : HallSymbolNotation} {st : GenState} (h : Final n st) (hn : Consistent n) :
    (st.list.map M4.rot).Nodup := by
  unfold List.Nodup
  rw [List.pairwise_map]
  apply h.inv.distinct.imp_of_mem
  intro a b ha hb hne heq
  exact hne ⟨heq, hn.latCong (h.inv.all a ha) (h.inv.all b hb) heq⟩

theorem Final.card {n : HallSymbolNotation} {st : GenState} (h : Final n st) (hn : Consistent n) :
    st.list.length = (PointGroup n).ncard := by
  rw [h.pointGroup]
  have hs : rotSet st.list = ((st.list.map M4.rot).toFinset : Set M3) := by
    ext r; simp [rotSet]
  rw [hs, Set.ncard_coe_finset, List.toFinset_card_of_nodup (h.rot_nodup hn), List.length_map]

theorem Final.card_le {n : HallSymbolNotation} {st : GenState} (h : Final n st) :
    (PointGroup n).Finite ∧ (PointGroup n).ncard ≤ st.list.length := by
  rw [h.pointGroup]
  refine ⟨rotSet_finite _, ?_⟩
  have hs : rotSet st.list = ((st.list.map M4.rot).toFinset : Set M3) := by
    ext r; simp [rotSet]
  rw [hs, Set.ncard_coe_finset]
  exact (List.toFinset_card_le _).trans (by rw [List.length_map])

/-! ## Termination -/

theorem red_finite : {v : V3 | v.Red}.Finite := by
  have : {v : V3 | v.Red} ⊆ (fun p : Int × Int × Int => (⟨p.1, p.2.1, p.2.2⟩ : V3)) ''
      ((Set.Icc 0 11) ×ˢ ((Set.Icc 0 11) ×ˢ (Set.Icc 0 11))) := by
    rintro ⟨x, y, z⟩ ⟨⟨h1, h2⟩, ⟨h3, h4⟩, ⟨h5, h6⟩⟩
    refine ⟨(x, y, z), ?_, rfl⟩
    simp only [Set.mem_prod, Set.mem_Icc] at *
    omega
  exact Set.Finite.subset (((Set.finite_Icc _ _).prod ((Set.finite_Icc _ _).prod (Set.finite_Icc _ _))).image _) this

/-- A bound on the length of any list with the invariant, when the point group is finite. -/
theorem exists_length_bound {n : HallSymbolNotation} (hf : (PointGroup n).Finite) :
    ∃ B, ∀ st, Inv n.latticeSymbol (InGroup n) st → st.list.length ≤ B := by
  have hfin := hf.prod red_finite
  refine ⟨(PointGroup n ×ˢ {v : V3 | v.Red}).ncard, fun st hi => ?_⟩
  have hnd : (st.list.map (fun m => (m.rot, m.tr))).Nodup := by
    unfold List.Nodup
    rw [List.pairwise_map]
    apply hi.distinct.imp
    intro a b hne heq
    simp only [Prod.mk.injEq] at heq
    exact hne ⟨heq.1, by rw [heq.2]; exact .refl _ _⟩
  rw [← List.length_map (f := fun m : M4 => (m.rot, m.tr)), ← List.toFinset_card_of_nodup hnd, ← Set.ncard_coe_finset]
  apply Set.ncard_le_ncard _ hfin
  intro p hp
  simp only [List.coe_toFinset, List.mem_map, Set.mem_ofPred_eq] at hp
  obtain ⟨m, hm, rfl⟩ := hp
  exact ⟨⟨m.act, hi.all m hm, m, rfl, rfl⟩, hi.red m hm⟩

theorem rounds_terminates {l : LatticeSymbol} {C : M4 → Prop} (hC : LatStable l C) (hM : MulStable C) {B : Nat}
    (hB : ∀ st, Inv l C st → st.list.length ≤ B) (k : Nat) (st : GenState) (hi : Inv l C st)
    (hk : B + 1 ≤ st.list.length + k) : ∃ st', l.rounds k st = some st' := by
  induction k generalizing st with
  | zero => have := hB st hi; omega
  | succ k ih =>
    unfold LatticeSymbol.rounds
    simp only []
    split
    · rename_i hlt
      exact ih _ (round_inv hC hM hi) (by omega)
    · exact ⟨st, rfl⟩

theorem rounds_of_finite {n : HallSymbolNotation} {ms : List M4} (h : n.seitzMatrices = some ms)
    (hf : (PointGroup n).Finite) : ∃ fuel st, n.latticeSymbol.rounds fuel (n.startState ms) = some st := by
  obtain ⟨B, hB⟩ := exists_length_bound hf
  obtain ⟨st, hst⟩ := rounds_terminates (inGroup_latStable n) (inGroup_mulStable n) hB (B + 1) (n.startState ms)
    (start_inv h).1 (by omega)
  exact ⟨_, st, hst⟩

/-- More fuel does not change the result. -/
theorem rounds_mono {l : LatticeSymbol} {k k' : Nat} {st st' : GenState} (hk : k ≤ k') (h : l.rounds k st = some st') :
    l.rounds k' st = some st' := by
  induction k generalizing k' st with
  | zero => simp [LatticeSymbol.rounds] at h
  | succ k ih =>
    obtain ⟨k', rfl⟩ : ∃ j, k' = j + 1 := ⟨k' - 1, by omega⟩
    unfold LatticeSymbol.rounds at h ⊢
    simp only [] at h ⊢
    split at h
    · rename_i hlt; rw [if_pos hlt]; exact ih (by omega) h
    · rename_i hlt; rw [if_neg hlt]; exact h

end Verif
