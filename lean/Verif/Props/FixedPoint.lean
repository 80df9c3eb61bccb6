import Verif.Rows.Fixed
import Verif.Props.Complete
import Verif.Props.Site

/-! # Groups without special positions (C104) -/

namespace Verif

theorem SameType.free_le {n n' : HallSymbolNotation} (h : SameType n n') (hf : FixedPointFree n) : FixedPointFree n' := by
  obtain ⟨a, d, q, hd, ha, h⟩ := h
  obtain ⟨b, e, s, he, hb, h1, h2⟩ := changeOfBasis_inv a d q hd ha
  intro f' hf' p hp
  have ef : changeOfBasis a d q ∘ (changeOfBasis b e s ∘ f' ∘ changeOfBasis a d q) = f' ∘ changeOfBasis a d q := by
    calc _ = (changeOfBasis a d q ∘ changeOfBasis b e s) ∘ f' ∘ changeOfBasis a d q := rfl
      _ = _ := by rw [h1]; rfl
  have hid := hf _ ((h _ _ ef).2 hf') (changeOfBasis b e s p) (by
    have := congrFun h1 p
    simp only [Function.comp_apply, id] at this ⊢
    rw [this, hp])
  rw [hid] at ef
  calc f' = (f' ∘ changeOfBasis a d q) ∘ changeOfBasis b e s := by rw [Function.comp_assoc, h1]; rfl
    _ = changeOfBasis a d q ∘ changeOfBasis b e s := by rw [← ef]; rfl
    _ = id := h1

theorem SameType.free {n n' : HallSymbolNotation} (h : SameType n n') : FixedPointFree n ↔ FixedPointFree n' :=
  ⟨h.free_le, h.symm.free_le⟩

/-- C104. For every notation with general positions, consistent or not: no operation of the group but the identity leaves a
point where it is exactly when the number of the group is one of the 13. -/
theorem free_iff_number {n : HallSymbolNotation} {g : GeneralPositions} (hg : HasPositions n g) :
    FixedPointFree n ↔ ∃ k ∈ freeNumbers, HasTypeNumber n k := by
  constructor
  · intro hf
    obtain ⟨k, ⟨⟨l1, l2⟩, hk⟩, -⟩ := one_of_230_types hg
    refine ⟨k, ?_, hk⟩
    obtain ⟨code, h, n', e1, e2, e3, e4, e5⟩ := hk
    have hcov := List.all_eq_true.1 fix_covered (k - 1) (List.mem_range.2 (by omega))
    rw [Bool.or_eq_true] at hcov
    rcases hcov with hcov | hcov
    · obtain ⟨k', hm, e⟩ := List.any_eq_true.1 hcov
      rw [Nat.beq_eq] at e
      obtain rfl : k' = k := by omega
      exact hm
    · obtain ⟨r, hr, e⟩ := List.any_eq_true.1 hcov
      rw [Nat.beq_eq] at e
      exact absurd (e5.free.1 hf) (FixRow.sound (List.all_eq_true.1 fixRows_ok r hr) (by rw [e]; exact e3) e4)
  · rintro ⟨k, hk, code, h, n', e1, e2, e3, e4, e5⟩
    have := List.all_eq_true.1 freeRows_ok k hk
    unfold freeRow at this
    rw [e3] at this
    simp only at this
    rw [e4] at this
    simp only at this
    split at this
    · cases this
    · rename_i ms hms
      rw [Bool.and_eq_true] at this
      exact e5.free.2 (free_of_check hms (checkCert_sound this.1) this.2)

/-- C104. For a consistent notation: every point of space is returned to its place, up to whole cells, by the identity alone
of the listed operations (so that there are no special positions) exactly when the number is one of the 13. -/
theorem no_special_positions_iff_number {n : HallSymbolNotation} {g : GeneralPositions} (hg : HasPositions n g) (hn : Consistent n) :
    (∀ p, hits g.deriveFullSets.flatten p p = 1) ↔ ∃ k ∈ freeNumbers, HasTypeNumber n k := by
  rw [← free_iff_number hg]
  have hone : ∀ p, M3.one ∈ SiteRotations n p := fun p => (siteRotations_group hg p).one
  constructor
  · intro h f hf p hp
    have hc := h p
    rw [hits_eq hg hn p, Set.ncard_eq_one] at hc
    obtain ⟨r, hr⟩ := hc
    obtain ⟨m, rfl, -, -⟩ := hf.isOp
    have hm : m.rot ∈ SiteRotations n p := ⟨_, ⟨hf, hp⟩, m, rfl, rfl⟩
    have h1 := hone p
    rw [hr, Set.mem_singleton_iff] at hm h1
    have e : m.rot = M3.one := hm.trans h1.symm
    have hx := congrArg Pt.x hp
    have hy := congrArg Pt.y hp
    have hz := congrArg Pt.z hp
    simp only [M4.act, e, M3.one] at hx hy hz
    push_cast at hx hy hz
    have tx : (m.tr.x : ℚ) = 0 := by linarith
    have ty : (m.tr.y : ℚ) = 0 := by linarith
    have tz : (m.tr.z : ℚ) = 0 := by linarith
    funext x
    simp only [M4.act, e, M3.one, tx, ty, tz, id]
    ext <;> simp
  · intro h p
    rw [hits_eq hg hn p, Set.ncard_eq_one]
    refine ⟨M3.one, Set.eq_singleton_iff_unique_mem.2 ⟨hone p, ?_⟩⟩
    rintro _ ⟨f, hf, m, rfl, rfl⟩
    have e := h _ hf.1 p hf.2
    have : M4.identity.act = id := M4.act_mk_one _ _ _ rfl
    rw [← this] at e
    exact (M4.act_inj e).1

/-- The group of `P 4xu` has number 76: all its positions are general. -/
example : HasPositions (hall "P 4xu") (positionsOf "P 4xu") ∧ Consistent (hall "P 4xu") ∧ FixedPointFree (hall "P 4xu") ∧
    ∀ p, hits (positionsOf "P 4xu").deriveFullSets.flatten p p = 1 := by
  have hn : Consistent (hall "P 4xu") := consistent_by_check (by decide +kernel)
  obtain ⟨hg, hk, -⟩ := sample_76
  generalize hall "P 4xu" = n at *
  generalize positionsOf "P 4xu" = g at *
  have h : ∃ k ∈ freeNumbers, HasTypeNumber n k := ⟨76, by decide, hk⟩
  exact ⟨hg, hn, (free_iff_number hg).2 h, (no_special_positions_iff_number hg hn).2 h⟩

/-- The group of `P 2 -2d`, which is not consistent, has number 43: some operation has a fixed point. -/
example : HasPositions (hall "P 2 -2d") (positionsOf "P 2 -2d") ∧ ¬ FixedPointFree (hall "P 2 -2d") := by
  obtain ⟨hg, -, hk⟩ := sample_43
  generalize hall "P 2 -2d" = n at *
  generalize positionsOf "P 2 -2d" = g at *
  refine ⟨hg, fun h => ?_⟩
  obtain ⟨k, hm, hk'⟩ := (free_iff_number hg).1 h
  have : ∀ k ∈ freeNumbers, (1 ≤ k ∧ k ≤ 230) ∧ k ≠ 43 := by decide
  obtain rfl := (one_of_230_types hg).unique ⟨(this k hm).1, hk'⟩ ⟨by decide, hk⟩
  exact (this _ hm).2 rfl

end Verif
