import Verif.Spec.Multiplicity
import Verif.Props.Conditions
import Verif.Props.Polar
import Verif.Props.Subgroups

/-! # Multiplicities of reflections (C116) -/

namespace Verif

theorem phase_injective {h h' : V3} {c : ℚ} (e : ∀ p, h.phase p = h'.phase p + c) : h = h' := by
  have k0 := e ⟨0, 0, 0⟩
  have k1 := e ⟨1, 0, 0⟩
  have k2 := e ⟨0, 1, 0⟩
  have k3 := e ⟨0, 0, 1⟩
  simp only [V3.phase, mul_zero, mul_one, add_zero, zero_add] at k0 k1 k2 k3
  rw [← k0, add_zero] at k1 k2 k3
  exact V3.ext (by exact_mod_cast k1) (by exact_mod_cast k2) (by exact_mod_cast k3)

theorem through_act {m : M4} {h h' : V3} : ReflectionThrough m.act h h' ↔ m.rot.vecMul h = h' := by
  constructor
  · rintro ⟨c, hc⟩
    refine phase_injective (c := c - (V3.dot h m.tr : Int) / 12) fun p => ?_
    have := hc p
    rw [phase_act] at this
    linarith
  · rintro rfl
    exact ⟨_, fun p => phase_act h m p⟩

theorem equivalents_eq (n : HallSymbolNotation) (h : V3) : Equivalents n h = (fun r => M3.vecMul h r) '' PointGroup n := by
  ext h'
  constructor
  · rintro ⟨f, hf, ht⟩
    obtain ⟨m, rfl, -, -⟩ := hf.isOp
    exact ⟨m.rot, ⟨_, hf, m, rfl, rfl⟩, through_act.1 ht⟩
  · rintro ⟨r, ⟨f, hf, m, rfl, rfl⟩, e⟩
    exact ⟨_, hf, through_act.2 e⟩

theorem vecMul_mul (h : V3) (a b : M3) : M3.vecMul h (a.mul b) = M3.vecMul (M3.vecMul h a) b := by
  simp only [M3.vecMul, M3.mul, V3.mk.injEq]
  refine ⟨?_, ?_, ?_⟩ <;> ring

theorem vecMul_one (h : V3) : M3.vecMul h M3.one = h := by
  simp [M3.vecMul, M3.one]

theorem kept_iff {r : M3} {h : V3} : (∀ v : V3, V3.dot h (r.mulVec v) = V3.dot h v) ↔ M3.vecMul h r = h := by
  constructor
  · intro k
    have k1 := k ⟨1, 0, 0⟩
    have k2 := k ⟨0, 1, 0⟩
    have k3 := k ⟨0, 0, 1⟩
    simp only [V3.dot, M3.mulVec, mul_zero, mul_one, add_zero, zero_add] at k1 k2 k3
    apply V3.ext <;> simp only [M3.vecMul] <;> linarith
  · intro e v
    have hx := congrArg V3.x e
    have hy := congrArg V3.y e
    have hz := congrArg V3.z e
    simp only [M3.vecMul] at hx hy hz
    simp only [V3.dot, M3.mulVec]
    linear_combination v.x * hx + v.y * hy + v.z * hz

theorem pointGroup_uinv {n : HallSymbolNotation} {r : M3} (h : r ∈ PointGroup n) :
    ∃ s ∈ PointGroup n, r.mul s = M3.one ∧ s.mul r = M3.one := by
  obtain ⟨f, hf, m, rfl, rfl⟩ := h
  exact ⟨m.uinv.rot, ⟨_, hf.uinv, _, rfl, rfl⟩, M3.mul_uinv hf.unimod, M3.uinv_mul hf.unimod⟩

/-- C116. For every notation with general positions, consistent or not: the number of reflections equivalent to a reflection
times the number of rotations of the group that keep it is the number of rotations of the group. -/
theorem reflection_multiplicity {n : HallSymbolNotation} {g : GeneralPositions} (hg : HasPositions n g) (h : V3) :
    (Equivalents n h).Finite ∧
      (Equivalents n h).ncard * (ReflectionRotations n h).ncard = (PointGroup n).ncard := by
  classical
  have hfin := (pointGroup_rotations hg).1.finite
  rw [equivalents_eq]
  refine ⟨hfin.image _, ?_⟩
  set P := hfin.toFinset with hP
  have hmem : ∀ r, r ∈ P ↔ r ∈ PointGroup n := fun r => hfin.mem_toFinset
  have hR : ReflectionRotations n h = (P.filter fun r => M3.vecMul h r = h : Finset M3) := by
    ext r
    simp only [ReflectionRotations, Set.mem_ofPred_eq, Finset.coe_filter, hmem, kept_iff]
  have hE : (fun r => M3.vecMul h r) '' PointGroup n = (P.image fun r => M3.vecMul h r : Finset V3) := by
    rw [Finset.coe_image, hP, hfin.coe_toFinset]
  have hG : (PointGroup n).ncard = P.card := by
    rw [hP, Set.ncard_eq_toFinset_card _ hfin]
  rw [hR, hE, hG, Set.ncard_coe_finset, Set.ncard_coe_finset]
  rw [Finset.card_eq_sum_card_fiberwise (f := fun r => M3.vecMul h r) (t := P.image fun r => M3.vecMul h r)
    (fun r hr => Finset.mem_coe.2 (Finset.mem_image_of_mem _ hr))]
  rw [Finset.sum_const_nat (m := (P.filter fun r => M3.vecMul h r = h).card)]
  intro w hw
  obtain ⟨r, hr, rfl⟩ := Finset.mem_image.1 hw
  obtain ⟨s, hs, e1, e2⟩ := pointGroup_uinv ((hmem r).1 hr)
  refine Finset.card_bij' (fun a _ => a.mul s) (fun a _ => a.mul r) ?_ ?_ ?_ ?_
  · intro a ha
    obtain ⟨h1, h2⟩ := Finset.mem_filter.1 ha
    refine Finset.mem_filter.2 ⟨(hmem _).2 ((pointGroup_rotations hg).1.mul _ ((hmem _).1 h1) _ hs), ?_⟩
    rw [vecMul_mul, h2, ← vecMul_mul, e1, vecMul_one]
  · intro a ha
    obtain ⟨h1, h2⟩ := Finset.mem_filter.1 ha
    refine Finset.mem_filter.2 ⟨(hmem _).2 ((pointGroup_rotations hg).1.mul _ ((hmem _).1 h1) _ ((hmem _).1 hr)), ?_⟩
    rw [vecMul_mul, h2]
  · intro a _
    rw [M3.mul_assoc, e2, M3.mul_one]
  · intro a _
    rw [M3.mul_assoc, e1, M3.mul_one]

/-- C116. For every consistent notation: the number of equivalent reflections divides the number of core positions, and a
general reflection has as many equivalents as there are core positions. -/
theorem general_multiplicity {n : HallSymbolNotation} {g : GeneralPositions} (hg : HasPositions n g) (hn : Consistent n) (h : V3) :
    (Equivalents n h).ncard ∣ g.numOfGeneralPos ∧
      (GeneralReflection n h → (Equivalents n h).ncard = g.numOfGeneralPos) := by
  have hm := (reflection_multiplicity hg h).2
  have hc := (positions_form_group hg hn).2.2.2
  refine ⟨⟨_, (hc.trans hm.symm)⟩, fun hh => ?_⟩
  have hone : ReflectionRotations n h = {M3.one} := by
    ext r
    constructor
    · rintro ⟨⟨f, hf, m, rfl, rfl⟩, hk⟩
      obtain ⟨q, hq⟩ := hh _ hf ⟨(V3.dot h m.tr : Int) / 12, fun p => by rw [phase_act, kept_iff.1 hk]⟩
      have k0 := hq ⟨0, 0, 0⟩
      have k1 := hq ⟨1, 0, 0⟩
      have k2 := hq ⟨0, 1, 0⟩
      have k3 := hq ⟨0, 0, 1⟩
      simp only [M4.act, Pt.mk.injEq, mul_zero, mul_one, add_zero, zero_add] at k0 k1 k2 k3
      obtain ⟨⟨a1, a2, a3⟩, ⟨b1, b2, b3⟩, ⟨c1, c2, c3⟩, ⟨d1, d2, d3⟩⟩ := And.intro k0 (And.intro k1 (And.intro k2 k3))
      rw [Set.mem_singleton_iff]
      unfold M3.one
      apply M3.ext <;> simp only [] <;> qify <;> linarith
    · rintro rfl
      exact ⟨rotations_one n, kept_iff.2 (vecMul_one h)⟩
  rw [hone, Set.ncard_singleton, mul_one] at hm
  rw [hm, hc]

theorem opposite_rows {r : M3} (h : r.Cubic ∨ r.Hexagonal) (e : M3.vecMul ⟨1, 7, 49⟩ r = ⟨-1, -7, -49⟩) : r = M3.one.neg := by
  rcases h with h | h
  · exact (show ∀ r ∈ cubicList, M3.vecMul ⟨1, 7, 49⟩ r = ⟨-1, -7, -49⟩ → r = M3.one.neg by decide +kernel) r ((cubic_iff_mem r).1 h) e
  · exact (show ∀ r ∈ hexList, M3.vecMul ⟨1, 7, 49⟩ r = ⟨-1, -7, -49⟩ → r = M3.one.neg by decide +kernel) r ((hexagonal_iff_mem r).1 h) e

/-- C116. For every notation with general positions: every reflection is equivalent to its opposite exactly when the group
has a centre of inversion. -/
theorem friedel_iff_centre {n : HallSymbolNotation} {g : GeneralPositions} (hg : HasPositions n g) :
    (∀ h : V3, (⟨-h.x, -h.y, -h.z⟩ : V3) ∈ Equivalents n h) ↔ HasCentre n := by
  constructor
  · intro hall
    have h0 := hall ⟨1, 7, 49⟩
    rw [equivalents_eq] at h0
    obtain ⟨r, hr, e⟩ := h0
    have hsmall : r.Cubic ∨ r.Hexagonal := by
      have := pointGroup_fits_cell hg r hr
      unfold FitsFirstSymbol at this
      split at this
      · exact this.elim
      · split at this
        · exact .inr this
        · exact .inl this.1
        · exact .inr this
        · exact .inl this
    have hr1 := opposite_rows hsmall e
    obtain ⟨f, hf, m, rfl, rfl⟩ := hr
    refine ⟨_, hf, ⟨m.tr.x / 24, m.tr.y / 24, m.tr.z / 24⟩, fun p => ?_⟩
    simp only [M4.act, hr1, M3.one, M3.neg]
    ext <;> push_cast <;> ring
  · rintro ⟨f, hf, c, hc⟩ h
    refine ⟨f, hf, 2 * h.phase c, fun p => ?_⟩
    rw [hc]
    simp only [V3.phase]
    push_cast
    ring

/-- `P 4` has four reflections equivalent to 1 7 49, and no centre. -/
example : HasPositions (hall "P 4") (positionsOf "P 4") ∧ Consistent (hall "P 4") ∧ (positionsOf "P 4").numOfGeneralPos = 4 :=
  ⟨positionsOf_spec (by decide +kernel), consistent_by_check (by decide +kernel), by decide +kernel⟩

end Verif
