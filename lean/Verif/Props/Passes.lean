import Verif.Props.Subgroups

/-! # How often the closure loop runs (C86) -/

namespace Verif

/-- The loop never needs more passes than the final list is longer than the first one, plus one. -/
theorem rounds_passes {l : LatticeSymbol} {k : Nat} {st st' : GenState} (h : l.rounds k st = some st') :
    st.list.length ≤ st'.list.length ∧ l.rounds (st'.list.length + 1 - st.list.length) st = some st' := by
  induction k generalizing st with
  | zero => simp [LatticeSymbol.rounds] at h
  | succ k ih =>
    unfold LatticeSymbol.rounds at h
    simp only [] at h
    split at h
    · rename_i hlt
      obtain ⟨h1, h2⟩ := ih h
      refine ⟨by omega, ?_⟩
      refine rounds_mono (k := st'.list.length + 1 - (l.round st).list.length + 1) (by omega) ?_
      unfold LatticeSymbol.rounds
      simp only []
      rw [if_pos hlt]; exact h2
    · rename_i hlt
      obtain rfl := Option.some.inj h
      refine ⟨Nat.le_refl _, ?_⟩
      rw [show st.list.length + 1 - st.list.length = 0 + 1 by omega]
      unfold LatticeSymbol.rounds
      simp only []
      rw [if_neg hlt]

/-- More passes than needed do not change the answer. -/
theorem generalPositions_mono {n : HallSymbolNotation} {k k' : Nat} {g : GeneralPositions} (hk : k ≤ k')
    (h : n.generalPositions k = some (.ok g)) : n.generalPositions k' = some (.ok g) := by
  obtain ⟨ms, st, c, h1, h2, h3, h4, h5⟩ := generalPositions_ok h
  rw [generalPositions_of h1 h2 (rounds_mono hk h3) h4, ← h5]

/-- C86. The closure loop of `general_positions` runs at most as many passes as the result has general positions. -/
theorem passes_at_most_positions {n : HallSymbolNotation} {g : GeneralPositions} (h : HasPositions n g) :
    n.generalPositions g.numOfGeneralPos = some (.ok g) := by
  obtain ⟨k, h⟩ := h
  obtain ⟨ms, st, c, h1, h2, h3, h4, h5⟩ := generalPositions_ok h
  obtain ⟨p1, p2⟩ := rounds_passes h3
  have hs : 1 ≤ (n.startState ms).list.length := by
    have := (start_inv h1).2.1.length_le
    split at this <;> simp at this <;> omega
  have hl : g.corePositionSet.length = st.list.length := (HallSymbolNotation.sort_perm h4).length_eq
  have := generalPositions_of h1 h2 (rounds_mono (k' := g.numOfGeneralPos)
    (by change _ ≤ g.corePositionSet.length; omega) p2) h4
  rw [this, ← h5]

/-- C86. For a consistent symbol at most 48 passes are ever needed: after 48 passes the result is there or there is none. -/
theorem passes_at_most_48 {n : HallSymbolNotation} (hn : Consistent n) (g : GeneralPositions) :
    HasPositions n g ↔ n.generalPositions 48 = some (.ok g) := by
  refine ⟨fun h => generalPositions_mono ?_ (passes_at_most_positions h), fun h => ⟨_, h⟩⟩
  have := positions_count_values hn h
  revert this
  generalize g.numOfGeneralPos = k
  intro h
  simp only [List.mem_cons, List.not_mem_nil, or_false] at h
  omega

/-- The point group of a symbol with positions, consistent or not, has at most 48 elements. -/
theorem pointGroup_le_48 {n : HallSymbolNotation} {g : GeneralPositions} (hg : HasPositions n g) :
    (PointGroup n).Finite ∧ (PointGroup n).ncard ≤ 48 := by
  obtain ⟨h1, h2, -⟩ := (positions_exist_iff n).1 ⟨g, hg⟩
  obtain ⟨T, t1, t2, t3, t4⟩ := cell_group h1
  have hsub : PointGroup n ⊆ T := by
    intro r hr
    rw [t3]
    refine pointGroup_fits h1 ?_ r hr
    intro s hs m' hm'
    obtain ⟨m2, hm2, hf⟩ := h2 s hs
    rw [hm'] at hm2
    obtain rfl := Option.some.inj hm2
    exact hf
  refine ⟨t1.finite.subset hsub, (Set.ncard_le_ncard hsub t1.finite).trans ?_⟩
  rw [t4]
  unfold cellSymmetries
  split
  · decide
  · split <;> decide

theorem red_ncard : {v : V3 | v.Red}.ncard ≤ 1728 := by
  let F : Finset (Int × Int × Int) := (Finset.Icc 0 11) ×ˢ ((Finset.Icc 0 11) ×ˢ (Finset.Icc 0 11))
  have hsub : {v : V3 | v.Red} ⊆ (fun p : Int × Int × Int => (⟨p.1, p.2.1, p.2.2⟩ : V3)) '' (F : Set (Int × Int × Int)) := by
    rintro ⟨x, y, z⟩ ⟨⟨h1, h2⟩, ⟨h3, h4⟩, ⟨h5, h6⟩⟩
    refine ⟨(x, y, z), ?_, rfl⟩
    simp only [F, Finset.coe_product, Finset.coe_Icc, Set.mem_prod, Set.mem_Icc] at *
    omega
  have hF : F.card = 1728 := by simp [F, Finset.card_product]
  calc _ ≤ _ := Set.ncard_le_ncard hsub (F.finite_toSet.image _)
    _ ≤ (F : Set (Int × Int × Int)).ncard := Set.ncard_image_le F.finite_toSet
    _ = 1728 := by rw [Set.ncard_coe_finset, hF]

/-- C86. The number of general positions of any symbol, consistent or not, is at most 48 times the 1728 translations that
can be written in twelfths of the cell. -/
theorem positions_bounded {n : HallSymbolNotation} {g : GeneralPositions} (hg : HasPositions n g) :
    g.numOfGeneralPos ≤ 48 * 1728 := by
  obtain ⟨k, h⟩ := hg
  obtain ⟨hf, hle⟩ := pointGroup_le_48 ⟨k, h⟩
  obtain ⟨ms, st, c, h1, h2, h3, h4, h5⟩ := generalPositions_ok h
  have hi := (final_of_rounds h1 h3).inv
  have hnd : (st.list.map (fun m => (m.rot, m.tr))).Nodup := by
    unfold List.Nodup
    rw [List.pairwise_map]
    apply hi.distinct.imp
    intro a b hne heq
    simp only [Prod.mk.injEq] at heq
    exact hne ⟨heq.1, by rw [heq.2]; exact .refl _ _⟩
  have hlen : g.numOfGeneralPos = st.list.length := (HallSymbolNotation.sort_perm h4).length_eq
  rw [hlen, ← List.length_map (f := fun m : M4 => (m.rot, m.tr)), ← List.toFinset_card_of_nodup hnd, ← Set.ncard_coe_finset]
  calc _ ≤ (PointGroup n ×ˢ {v : V3 | v.Red}).ncard := by
        apply Set.ncard_le_ncard _ (hf.prod red_finite)
        intro p hp
        simp only [List.coe_toFinset, List.mem_map, Set.mem_ofPred_eq] at hp
        obtain ⟨m, hm, rfl⟩ := hp
        exact ⟨⟨m.act, hi.all m hm, m, rfl, rfl⟩, hi.red m hm⟩
    _ = (PointGroup n).ncard * {v : V3 | v.Red}.ncard := Set.ncard_prod
    _ ≤ 48 * 1728 := Nat.mul_le_mul hle red_ncard

/-- C86. For any symbol, consistent or not, 82944 passes decide whether there are general positions. -/
theorem passes_bounded (n : HallSymbolNotation) (g : GeneralPositions) :
    HasPositions n g ↔ n.generalPositions (48 * 1728) = some (.ok g) :=
  ⟨fun h => generalPositions_mono (positions_bounded h) (passes_at_most_positions h), fun h => ⟨_, h⟩⟩

/-- The sample has positions and is consistent; it needs more than one pass (one pass does not yet stop). -/
example : HasPositions sampleN (positionsOf "-C 2c 2") ∧ Consistent sampleN ∧ sampleN.generalPositions 1 = none :=
  ⟨positionsOf_spec (by decide +kernel), consistent_by_check (by decide +kernel), by decide +kernel⟩

/-- An inconsistent symbol with positions, to which only the general bound applies: `P 4 2d` has 20 of them. -/
example : HasPositions (hall "P 4 2d") (positionsOf "P 4 2d") ∧ (positionsOf "P 4 2d").numOfGeneralPos = 20 ∧
    ¬ Consistent (hall "P 4 2d") := by
  have h : HasPositions (hall "P 4 2d") (positionsOf "P 4 2d") := positionsOf_spec (by decide +kernel)
  have e : (positionsOf "P 4 2d").numOfGeneralPos = 20 := by decide +kernel
  refine ⟨h, e, fun hn => ?_⟩
  have := positions_count_values hn h
  rw [e] at this
  exact absurd this (by decide)

end Verif
