import Verif.Spec.Density
import Verif.Props.Diffraction

/-! # Densities (C110) -/

namespace Verif

theorem periodic_same {A : Type*} {ρ : Pt → A} (hρ : CellPeriodic ρ) {f g : Pt → Pt} (h : SameModCell f g) (p : Pt) :
    ρ (f p) = ρ (g p) := by
  obtain ⟨k, hk⟩ := h
  rw [hk, hρ]

/-- C110. A function with the period of the cell has the symmetry of the group exactly when the listed operations leave it
alone. -/
theorem symmetric_iff_listed {n : HallSymbolNotation} {g : GeneralPositions} (hg : HasPositions n g) (hn : Consistent n)
    {A : Type*} {ρ : Pt → A} :
    Symmetric n ρ ↔ CellPeriodic ρ ∧ ∀ m ∈ g.deriveFullSets.flatten, ∀ p, ρ (m.act p) = ρ p := by
  constructor
  · refine fun h => ⟨fun p k => h _ (.cell k) p, fun m hm => h _ ?_⟩
    obtain ⟨set, hset, hm⟩ := List.mem_flatten.1 hm
    exact (positions_in_group hg set hset m hm).2
  · rintro ⟨hρ, h⟩ f hf p
    obtain ⟨m, hm, hs⟩ := full_pick hg hn hf
    rw [periodic_same hρ hs, h m hm]

/-- C110. Summing a periodic function over the images under the listed operations gives a function with the symmetry of the
group, and a function that has the symmetry is multiplied by the number of listed operations. -/
theorem symmetrised_symmetric {n : HallSymbolNotation} {g : GeneralPositions} (hg : HasPositions n g) (hn : Consistent n)
    {A : Type*} [AddCommMonoid A] {ρ : Pt → A} (hρ : CellPeriodic ρ) :
    Symmetric n (symmetrised g.deriveFullSets.flatten ρ) ∧
    (Symmetric n ρ → ∀ p, symmetrised g.deriveFullSets.flatten ρ p = g.deriveFullSets.flatten.length • ρ p) := by
  classical
  set L := g.deriveFullSets.flatten with hL
  have hgrp : ∀ m ∈ L, SpaceGroup n m.act := by
    intro m hm
    obtain ⟨set, hset, hm⟩ := List.mem_flatten.1 hm
    exact (positions_in_group hg set hset m hm).2
  constructor
  · intro f hf p
    obtain ⟨a, rfl, -, hu⟩ := hf.isOp
    unfold symmetrised
    have hnd : L.Nodup := full_nodup hg
    have key : ∀ m ∈ L, ∃ m' ∈ L, SameModCell (m.act ∘ a.act) m'.act := fun m hm => full_pick hg hn ((hgrp m hm).comp hf)
    choose! φ hφ hφ' using key
    rw [← List.sum_toFinset _ hnd, ← List.sum_toFinset _ hnd]
    have hinj : Set.InjOn φ L.toFinset := by
      intro m hm m' hm' h
      rw [Finset.mem_coe, List.mem_toFinset] at hm hm'
      apply full_unique hg hm hm'
      obtain ⟨k, h1⟩ := hφ' m hm
      obtain ⟨k', h2⟩ := hφ' m' hm'
      rw [← h] at h2
      refine ⟨k.sub k', fun x => ?_⟩
      have e1 := h1 (a.uinv.act x)
      have e2 := h2 (a.uinv.act x)
      have e : a.act (a.uinv.act x) = x := congrFun (M4.act_uinv hu) x
      simp only [Function.comp, e] at e1 e2
      rw [e1, e2]
      simp [Pt.addCell, V3.sub]
    have hmaps : Set.MapsTo φ L.toFinset L.toFinset := by
      intro m hm
      rw [Finset.mem_coe, List.mem_toFinset] at hm ⊢
      exact hφ m hm
    refine Finset.sum_nbij φ hmaps hinj (Finset.surjOn_of_injOn_of_card_le φ hmaps hinj le_rfl) ?_
    intro m hm
    exact periodic_same hρ (hφ' m (List.mem_toFinset.1 hm)) p
  · intro h p
    unfold symmetrised
    rw [List.map_congr_left (g := fun _ => ρ p) (fun m hm => h _ (hgrp m hm) p), List.map_const', List.sum_replicate]

/-- The hypotheses hold for `P 2c` and a function that is periodic and not symmetric. -/
example : Consistent (hall "P 2c") ∧ HasPositions (hall "P 2c") (positionsOf "P 2c") ∧
    CellPeriodic (fun p : Pt => Int.fract p.z) ∧ ¬ Symmetric (hall "P 2c") (fun p : Pt => Int.fract p.z) := by
  refine ⟨consistent_by_check (by decide +kernel), positionsOf_spec (by decide +kernel), fun p k => ?_, fun h => ?_⟩
  · simp [Pt.addCell]
  · have hs : (hall "P 2c").originShift.vec = ⟨0, 0, 0⟩ := by decide +kernel
    have h1 := SpaceGroup.generator (n := hall "P 2c") (s := ⟨false, .N2, .None, .None, .Z, some [.C]⟩)
      (g := ⟨⟨-1, 0, 0, 0, -1, 0, 0, 0, 1⟩, ⟨0, 0, 6⟩, ⟨0, 0, 0⟩, 1⟩) (by decide +kernel) (by decide +kernel)
    have := h _ h1 ⟨0, 0, 0⟩
    rw [hs] at this
    simp only [M4.act, Pt.subTwelfths, Pt.addTwelfths] at this
    norm_num at this

end Verif
