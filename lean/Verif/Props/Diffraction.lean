import Mathlib.Analysis.SpecialFunctions.Complex.Log
import Mathlib.LinearAlgebra.LinearIndependent.Basic
import Verif.Spec.Diffraction
import Verif.Props.Orbits

/-! # Reflections (C108) -/

namespace Verif

/-! ## Waves -/

theorem phase_act (h : V3) (m : M4) (p : Pt) :
    h.phase (m.act p) = (m.rot.vecMul h).phase p + (V3.dot h m.tr : Int) / 12 := by
  simp only [V3.phase, M4.act, M3.vecMul, V3.dot, Int.cast_add, Int.cast_mul]
  ring

theorem phase_add (h : V3) (p q : Pt) : h.phase ⟨p.x + q.x, p.y + q.y, p.z + q.z⟩ = h.phase p + h.phase q := by
  simp only [V3.phase]; ring

/-- `exp(2πi c)`. -/
noncomputable def unitWave (c : ℚ) : ℂ := Complex.exp (2 * Real.pi * Complex.I * c)

theorem wave_eq (h : V3) (p : Pt) : wave h p = unitWave (h.phase p) := rfl

theorem unitWave_add (a b : ℚ) : unitWave (a + b) = unitWave a * unitWave b := by
  unfold unitWave
  rw [← Complex.exp_add]
  congr 1
  push_cast
  ring

theorem unitWave_ne_zero (a : ℚ) : unitWave a ≠ 0 := Complex.exp_ne_zero _

theorem unitWave_eq_one (c : ℚ) : unitWave c = 1 ↔ ∃ k : ℤ, c = k := by
  unfold unitWave
  rw [Complex.exp_eq_one_iff]
  have hpi : (2 * Real.pi * Complex.I : ℂ) ≠ 0 := by
    simp [Real.pi_ne_zero]
  constructor
  · rintro ⟨k, hk⟩
    refine ⟨k, ?_⟩
    have : (c : ℂ) = k := by
      apply mul_left_cancel₀ hpi
      rw [hk]; ring
    exact_mod_cast this
  · rintro ⟨k, rfl⟩
    exact ⟨k, by push_cast; ring⟩

theorem unitWave_int (k : ℤ) : unitWave k = 1 := (unitWave_eq_one _).2 ⟨k, rfl⟩

theorem unitWave_norm (c : ℚ) : ‖unitWave c‖ = 1 := by
  unfold unitWave
  have : (2 * Real.pi * Complex.I * (c : ℂ)) = ((2 * Real.pi * (c : ℝ) : ℝ) : ℂ) * Complex.I := by
    push_cast; ring
  rw [this, Complex.norm_exp_ofReal_mul_I]

theorem wave_cell (h : V3) {f g : Pt → Pt} (hfg : SameModCell f g) (p : Pt) : wave h (f p) = wave h (g p) := by
  obtain ⟨k, hk⟩ := hfg
  rw [wave_eq, wave_eq, hk p]
  have : h.phase ((g p).addCell k) = h.phase (g p) + ((V3.dot h k : ℤ) : ℚ) := by
    simp only [V3.phase, Pt.addCell, V3.dot]; push_cast; ring
  rw [this, unitWave_add, unitWave_int, mul_one]

/-! ## The listed operations are permuted -/

theorem act_injective {a : M4} (hu : a.rot.Unimod) {u v : Pt} (h : a.act u = a.act v) : u = v := by
  have hid := M4.uinv_act hu
  have e5 := congrFun hid u
  have e6 := congrFun hid v
  simp only [Function.comp, id] at e5 e6
  rw [← e5, h, e6]

theorem act_addCell (a : M4) (p : Pt) (v : V3) : a.act (p.addCell v) = (a.act p).addCell (a.rot.mulVec v) := by
  simp only [Pt.addCell, M4.act, M3.mulVec, Int.cast_add, Int.cast_mul, Pt.mk.injEq]
  refine ⟨?_, ?_, ?_⟩ <;> ring

/-- Following all listed operations by one operation of the group does not change a sum over them. -/
theorem sum_permuted {n : HallSymbolNotation} {g : GeneralPositions} (hg : HasPositions n g) (hn : Consistent n)
    {f : Pt → Pt} (hf : SpaceGroup n f) (h : V3) (p : Pt) :
    (g.deriveFullSets.flatten.map fun m => wave h (f (m.act p))).sum = structureSum g.deriveFullSets.flatten h p := by
  classical
  obtain ⟨a, rfl, -, hu⟩ := hf.isOp
  unfold structureSum
  set L := g.deriveFullSets.flatten with hL
  have hgrp : ∀ m ∈ L, SpaceGroup n m.act := by
    intro m hm
    obtain ⟨set, hset, hm⟩ := List.mem_flatten.1 hm
    exact (positions_in_group hg set hset m hm).2
  have hnd : L.Nodup := full_nodup hg
  have key : ∀ m ∈ L, ∃ m' ∈ L, SameModCell (a.act ∘ m.act) m'.act := fun m hm => full_pick hg hn (hf.comp (hgrp m hm))
  choose! φ hφ hφ' using key
  rw [← List.sum_toFinset _ hnd, ← List.sum_toFinset _ hnd]
  have hinj : Set.InjOn φ L.toFinset := by
    intro m hm m' hm' h
    rw [Finset.mem_coe, List.mem_toFinset] at hm hm'
    apply full_unique hg hm hm'
    obtain ⟨k, h1⟩ := hφ' m hm
    obtain ⟨k', h2⟩ := hφ' m' hm'
    rw [← h] at h2
    refine ⟨a.rot.uinv.mulVec (k.sub k'), fun x => ?_⟩
    apply act_injective hu
    have e1 := h1 x
    have e2 := h2 x
    simp only [Function.comp] at e1 e2
    rw [act_addCell, M3.mulVec_mulVec, M3.mul_uinv hu, M3.one_mulVec, e1, e2]
    simp [Pt.addCell, V3.sub]
  have hmaps : Set.MapsTo φ L.toFinset L.toFinset := by
    intro m hm
    rw [Finset.mem_coe, List.mem_toFinset] at hm ⊢
    exact hφ m hm
  refine Finset.sum_nbij φ hmaps hinj (Finset.surjOn_of_injOn_of_card_le φ hmaps hinj le_rfl) ?_
  intro m hm
  exact wave_cell h (hφ' m (List.mem_toFinset.1 hm)) p

/-! ## Equivalent reflections -/

theorem structureSum_through {n : HallSymbolNotation} {g : GeneralPositions} (hg : HasPositions n g) (hn : Consistent n)
    {f : Pt → Pt} (hf : SpaceGroup n f) {h h' : V3} {c : ℚ} (hc : ∀ p, h.phase (f p) = h'.phase p + c) (p : Pt) :
    structureSum g.deriveFullSets.flatten h p = structureSum g.deriveFullSets.flatten h' p * unitWave c := by
  rw [← sum_permuted hg hn hf]
  unfold structureSum
  rw [← List.sum_map_mul_right]
  congr 1
  refine List.map_congr_left fun m _ => ?_
  rw [wave_eq, hc, unitWave_add, ← wave_eq]

theorem absent_through {n : HallSymbolNotation} {f g : Pt → Pt} (hf : SpaceGroup n f) (hg : SpaceGroup n g)
    (hfg : f ∘ g = id) {h h' : V3} (hh : ReflectionThrough f h h') (ha : Absent n h') : Absent n h := by
  obtain ⟨c, hc⟩ := hh
  obtain ⟨k, hk, d, hd, hkd⟩ := ha
  refine ⟨f ∘ k ∘ g, hf.comp (hk.comp hg), d, hd, fun p => ?_⟩
  have e : f (g p) = p := congrFun hfg p
  have := hc (g p)
  rw [e] at this
  simp only [Function.comp]
  rw [hc, hkd, this]
  ring

/-- C108. A reflection and its image under an operation of the group: the structure sums of every point differ by a phase
only, so they have the same intensity, and the one is forbidden exactly when the other is. -/
theorem equivalent_reflections {n : HallSymbolNotation} {g : GeneralPositions} (hg : HasPositions n g) (hn : Consistent n)
    {f : Pt → Pt} (hf : SpaceGroup n f) {h h' : V3} (hh : ReflectionThrough f h h') :
    (∀ p, ‖structureSum g.deriveFullSets.flatten h' p‖ = ‖structureSum g.deriveFullSets.flatten h p‖) ∧
    (Absent n h' ↔ Absent n h) := by
  obtain ⟨a, rfl, -, hu⟩ := hf.isOp
  constructor
  · obtain ⟨c, hc⟩ := hh
    intro p
    rw [structureSum_through hg hn hf hc, norm_mul, unitWave_norm, mul_one]
  · refine ⟨absent_through hf hf.uinv (M4.act_uinv hu) hh, absent_through hf.uinv hf (M4.uinv_act hu) ?_⟩
    obtain ⟨c, hc⟩ := hh
    refine ⟨-c, fun p => ?_⟩
    have e : a.act (a.uinv.act p) = p := congrFun (M4.act_uinv hu) p
    have := hc (a.uinv.act p)
    rw [e] at this
    rw [this]
    ring

/-! ## Forbidden reflections -/

/-- C108. Whether a reflection is forbidden can be read off the listed operations. -/
theorem absent_iff_listed {n : HallSymbolNotation} {g : GeneralPositions} (hg : HasPositions n g) (hn : Consistent n)
    (h : V3) : Absent n h ↔ ∃ m ∈ g.deriveFullSets.flatten, m.rot.vecMul h = h ∧ ¬ (12 : Int) ∣ V3.dot h m.tr := by
  constructor
  · rintro ⟨f, hf, c, hc, hfc⟩
    obtain ⟨m, hm, k, hk⟩ := full_pick hg hn hf
    refine ⟨m, hm, ?_⟩
    have key : ∀ p, (m.rot.vecMul h).phase p + ((V3.dot h m.tr : Int) / 12 + (V3.dot h k : Int)) = h.phase p + c := by
      intro p
      have e := phase_act h m p
      have e2 : h.phase ((m.act p).addCell k) = h.phase (m.act p) + (V3.dot h k : Int) := by
        simp only [V3.phase, Pt.addCell, V3.dot]; push_cast; ring
      rw [← hfc p, hk p, e2, e]
      ring
    have k0 := key ⟨0, 0, 0⟩
    have k1 := key ⟨1, 0, 0⟩
    have k2 := key ⟨0, 1, 0⟩
    have k3 := key ⟨0, 0, 1⟩
    have z : ∀ h : V3, h.phase ⟨0, 0, 0⟩ = 0 := fun h => by simp [V3.phase]
    rw [z, z, zero_add, zero_add] at k0
    rw [k0] at k1 k2 k3
    have q1 := add_right_cancel k1
    have q2 := add_right_cancel k2
    have q3 := add_right_cancel k3
    simp only [V3.phase, mul_one, mul_zero, add_zero, zero_add] at q1 q2 q3
    refine ⟨V3.ext (by exact_mod_cast q1) (by exact_mod_cast q2) (by exact_mod_cast q3), ?_⟩
    rintro ⟨j, hj⟩
    apply hc (j + V3.dot h k)
    rw [← k0, hj]
    push_cast
    ring
  · rintro ⟨m, hm, h1, h2⟩
    obtain ⟨set, hset, hm⟩ := List.mem_flatten.1 hm
    refine ⟨m.act, (positions_in_group hg set hset m hm).2, (V3.dot h m.tr : Int) / 12, ?_, fun p => ?_⟩
    · intro k hk
      apply h2
      refine ⟨k, ?_⟩
      have : ((V3.dot h m.tr : Int) : ℚ) = 12 * k := by rw [← hk]; ring
      exact_mod_cast this
    · rw [phase_act, h1]

/-- The wave of a reflection, as a character of the translations. -/
noncomputable def waveHom (h : V3) : Multiplicative (ℚ × ℚ × ℚ) →* ℂ where
  toFun t := wave h ⟨t.toAdd.1, t.toAdd.2.1, t.toAdd.2.2⟩
  map_one' := by
    change wave h ⟨0, 0, 0⟩ = 1
    rw [wave_eq]
    have : h.phase ⟨0, 0, 0⟩ = ((0 : ℤ) : ℚ) := by simp [V3.phase]
    rw [this, unitWave_int]
  map_mul' a b := by
    change wave h ⟨a.toAdd.1 + b.toAdd.1, a.toAdd.2.1 + b.toAdd.2.1, a.toAdd.2.2 + b.toAdd.2.2⟩ = _
    have := phase_add h ⟨a.toAdd.1, a.toAdd.2.1, a.toAdd.2.2⟩ ⟨b.toAdd.1, b.toAdd.2.1, b.toAdd.2.2⟩
    rw [wave_eq, this, unitWave_add]
    rfl

theorem waveHom_injective : Function.Injective waveHom := by
  intro h h' e
  have key : ∀ p : Pt, ∃ k : ℤ, h.phase p - h'.phase p = k := by
    intro p
    have := DFunLike.congr_fun e (Multiplicative.ofAdd (p.x, p.y, p.z))
    change unitWave (h.phase p) = unitWave (h'.phase p) at this
    rw [← unitWave_eq_one]
    have e2 : unitWave (h.phase p - h'.phase p) * unitWave (h'.phase p) = unitWave (h.phase p) := by
      rw [← unitWave_add, sub_add_cancel]
    rw [← this] at e2
    exact mul_right_cancel₀ (unitWave_ne_zero _) (e2.trans (one_mul _).symm)
  -- a difference d with d/(2d) = 1/2 an integer is impossible
  have half : ∀ d : Int, (d ≠ 0 → ∃ k : ℤ, (d : ℚ) * (1 / (2 * d)) = k) → d = 0 := by
    intro d hd
    by_contra h0
    obtain ⟨k, hk⟩ := hd h0
    have hq : (d : ℚ) ≠ 0 := by exact_mod_cast h0
    have e : (d : ℚ) * (1 / (2 * d)) = 1 / 2 := by field_simp
    rw [e] at hk
    have : (2 * k : ℚ) = 1 := by rw [← hk]; norm_num
    have : (2 * k : ℤ) = 1 := by exact_mod_cast this
    omega
  have sub0 : ∀ a b : Int, a - b = 0 → a = b := fun a b h => by omega
  apply V3.ext <;> apply sub0 <;> apply half <;> intro _
  · obtain ⟨k, hk⟩ := key ⟨1 / (2 * ((h.x - h'.x : Int) : ℚ)), 0, 0⟩
    exact ⟨k, by rw [← hk]; simp only [V3.phase]; push_cast; ring⟩
  · obtain ⟨k, hk⟩ := key ⟨0, 1 / (2 * ((h.y - h'.y : Int) : ℚ)), 0⟩
    exact ⟨k, by rw [← hk]; simp only [V3.phase]; push_cast; ring⟩
  · obtain ⟨k, hk⟩ := key ⟨0, 0, 1 / (2 * ((h.z - h'.z : Int) : ℚ))⟩
    exact ⟨k, by rw [← hk]; simp only [V3.phase]; push_cast; ring⟩

/-- A sum of waves that vanishes everywhere: the amplitudes of each single wave cancel. -/
theorem waves_independent (L : List M4) (hnd : L.Nodup) (h : V3) (h0 : ∀ p, structureSum L h p = 0) (h' : V3) :
    ((L.filter fun m => m.rot.vecMul h = h').map fun m => unitWave ((V3.dot h m.tr : Int) / 12)).sum = 0 := by
  classical
  have hli := linearIndependent_iff'.1 (linearIndependent_monoidHom (Multiplicative (ℚ × ℚ × ℚ)) ℂ)
  set amp : M4 → ℂ := fun m => unitWave ((V3.dot h m.tr : Int) / 12) with hamp
  set chi : M4 → (Multiplicative (ℚ × ℚ × ℚ) →* ℂ) := fun m => waveHom (m.rot.vecMul h) with hchi
  have hsum : ∑ i ∈ L.toFinset.image chi, (∑ m ∈ L.toFinset with chi m = i, amp m) • (i : Multiplicative (ℚ × ℚ × ℚ) → ℂ) = 0 := by
    funext t
    have := h0 ⟨t.toAdd.1, t.toAdd.2.1, t.toAdd.2.2⟩
    unfold structureSum at this
    rw [← List.sum_toFinset _ hnd] at this
    rw [Pi.zero_apply, ← this, Finset.sum_apply,
      ← Finset.sum_fiberwise_of_maps_to (s := L.toFinset) (t := L.toFinset.image chi) (g := chi)
        (fun m hm => Finset.mem_image_of_mem chi hm)]
    refine Finset.sum_congr rfl fun i _ => ?_
    rw [Pi.smul_apply, smul_eq_mul, Finset.sum_mul]
    refine Finset.sum_congr rfl fun m hm => ?_
    rw [← (Finset.mem_filter.1 hm).2, wave_eq, phase_act, unitWave_add, mul_comm]
    rfl
  have e : ((L.filter fun m => m.rot.vecMul h = h').map amp).sum = ∑ m ∈ L.toFinset with chi m = waveHom h', amp m := by
    rw [← List.sum_toFinset _ (hnd.filter _), List.toFinset_filter]
    refine Finset.sum_congr ?_ fun _ _ => rfl
    ext m
    simp only [Finset.mem_filter, decide_eq_true_eq, hchi, waveHom_injective.eq_iff]
  rw [e]
  by_cases hm : waveHom h' ∈ L.toFinset.image chi
  · exact hli _ _ hsum _ hm
  · refine Finset.sum_eq_zero fun m hm' => ?_
    rw [Finset.mem_filter] at hm'
    exact absurd (hm'.2 ▸ Finset.mem_image_of_mem chi hm'.1) hm

/-- C108. The structure sums of the listed operations vanish for every point exactly when the symmetry forbids the
reflection. -/
theorem structure_sum_zero_iff {n : HallSymbolNotation} {g : GeneralPositions} (hg : HasPositions n g) (hn : Consistent n)
    (h : V3) : (∀ p, structureSum g.deriveFullSets.flatten h p = 0) ↔ Absent n h := by
  constructor
  · intro h0
    rw [absent_iff_listed hg hn]
    by_contra hcon
    push Not at hcon
    have hz := waves_independent _ (full_nodup hg) h h0 h
    obtain ⟨m, hm, k, hk⟩ := full_pick hg hn SpaceGroup.one
    have hone : ∀ m ∈ g.deriveFullSets.flatten.filter (fun m => m.rot.vecMul h = h),
        unitWave ((V3.dot h m.tr : Int) / 12) = 1 := by
      intro m hm
      rw [List.mem_filter, decide_eq_true_eq] at hm
      obtain ⟨j, hj⟩ := hcon m hm.1 hm.2
      rw [unitWave_eq_one]
      exact ⟨j, by rw [hj]; push_cast; ring⟩
    rw [List.map_congr_left hone, List.map_const', List.sum_replicate, nsmul_eq_mul, mul_one, Nat.cast_eq_zero,
      List.length_eq_zero_iff, List.filter_eq_nil_iff] at hz
    refine hz m hm ?_
    rw [decide_eq_true_eq]
    have key : ∀ p, (m.rot.vecMul h).phase p + ((V3.dot h m.tr : Int) / 12 + (V3.dot h k : Int)) = h.phase p := by
      intro p
      have e2 : h.phase ((m.act p).addCell k) = h.phase (m.act p) + (V3.dot h k : Int) := by
        simp only [V3.phase, Pt.addCell, V3.dot]; push_cast; ring
      have := hk p
      simp only [id] at this
      conv_rhs => rw [this, e2, phase_act]
      ring
    have k0 := key ⟨0, 0, 0⟩
    have k1 := key ⟨1, 0, 0⟩
    have k2 := key ⟨0, 1, 0⟩
    have k3 := key ⟨0, 0, 1⟩
    have z : ∀ h : V3, h.phase ⟨0, 0, 0⟩ = 0 := fun h => by simp [V3.phase]
    rw [z, z, zero_add] at k0
    rw [k0] at k1 k2 k3
    simp only [V3.phase, mul_one, mul_zero, add_zero, zero_add] at k1 k2 k3
    exact V3.ext (by exact_mod_cast k1) (by exact_mod_cast k2) (by exact_mod_cast k3)
  · rintro ⟨f, hf, c, hc, hfc⟩ p
    have e := structureSum_through hg hn hf hfc p
    have hne : unitWave c ≠ 1 := by
      rw [Ne, unitWave_eq_one]
      rintro ⟨k, hk⟩
      exact hc k hk
    have e2 : structureSum g.deriveFullSets.flatten h p * (unitWave c - 1) = 0 := by
      rw [mul_sub, mul_one, ← e, sub_self]
    rcases mul_eq_zero.1 e2 with h' | h'
    · exact h'
    · exact absurd (sub_eq_zero.1 h') hne

/-- C108. A centring vector forbids every reflection on which it is not a whole number, for every notation. -/
theorem centring_forbids {n : HallSymbolNotation} {v : V3} (hv : v ∈ n.latticeSymbol.translations) {h : V3}
    (hd : ¬ (12 : Int) ∣ V3.dot h v) : Absent n h := by
  refine ⟨_, .centring hv, (V3.dot h v : Int) / 12, fun k hk => hd ⟨k, ?_⟩, fun p => ?_⟩
  · have : ((V3.dot h v : Int) : ℚ) = 12 * k := by rw [← hk]; ring
    exact_mod_cast this
  · simp only [V3.phase, Pt.addTwelfths, V3.dot]; push_cast; ring

/-- C108. With a leading minus all structure sums are real. -/
theorem minus_makes_real {n : HallSymbolNotation} {g : GeneralPositions} (hg : HasPositions n g) (hn : Consistent n)
    (hm : n.latticeSymbol.minusSign = true) (h : V3) (p : Pt) : (structureSum g.deriveFullSets.flatten h p).im = 0 := by
  have e := structureSum_through hg hn (SpaceGroup.inversion hm) (h := h) (h' := h.neg) (c := ((0 : ℤ) : ℚ))
    (fun p => by simp only [V3.phase, V3.neg]; push_cast; ring) p
  rw [unitWave_int, mul_one] at e
  have e2 : structureSum g.deriveFullSets.flatten h.neg p = (starRingEnd ℂ) (structureSum g.deriveFullSets.flatten h p) := by
    unfold structureSum
    rw [map_list_sum, List.map_map]
    congr 1
    refine List.map_congr_left fun m _ => ?_
    simp only [Function.comp, wave, ← Complex.exp_conj]
    congr 1
    have : h.neg.phase (m.act p) = - h.phase (m.act p) := by simp only [V3.phase, V3.neg]; push_cast; ring
    rw [this]
    simp only [map_mul, Complex.conj_I, Complex.conj_ofReal, map_ofNat, Rat.cast_neg, map_ratCast]
    ring
  rw [e2] at e
  exact Complex.conj_eq_iff_im.1 e.symm

/-- The hypotheses hold, and both sides of the equivalence occur: the screw axis of `P 2c` forbids `001` and not `002`
or `101`. -/
example : Consistent (hall "P 2c") ∧ HasPositions (hall "P 2c") (positionsOf "P 2c") ∧ Absent (hall "P 2c") ⟨0, 0, 1⟩ ∧
    ¬ Absent (hall "P 2c") ⟨0, 0, 2⟩ ∧ ¬ Absent (hall "P 2c") ⟨1, 0, 1⟩ := by
  have hn : Consistent (hall "P 2c") := consistent_by_check (by decide +kernel)
  have hg : HasPositions (hall "P 2c") (positionsOf "P 2c") := positionsOf_spec (by decide +kernel)
  refine ⟨hn, hg, ?_⟩
  rw [absent_iff_listed hg hn, absent_iff_listed hg hn, absent_iff_listed hg hn]
  refine ⟨by decide +kernel, by decide +kernel, by decide +kernel⟩

/-- In `P 2c` the reflections `123` and `-1-23` are equivalent. -/
example : ∃ f, SpaceGroup (hall "P 2c") f ∧ ReflectionThrough f ⟨1, 2, 3⟩ ⟨-1, -2, 3⟩ := by
  have hs : (hall "P 2c").originShift.vec = ⟨0, 0, 0⟩ := by decide +kernel
  have h1 := SpaceGroup.generator (n := hall "P 2c") (s := ⟨false, .N2, .None, .None, .Z, some [.C]⟩)
    (g := ⟨⟨-1, 0, 0, 0, -1, 0, 0, 0, 1⟩, ⟨0, 0, 6⟩, ⟨0, 0, 0⟩, 1⟩) (by decide +kernel) (by decide +kernel)
  refine ⟨_, h1, 3 / 2, fun p => ?_⟩
  rw [hs]
  simp only [V3.phase, M4.act, Pt.subTwelfths, Pt.addTwelfths]
  push_cast
  ring

/-- A consistent notation with a leading minus. -/
example : Consistent (hall "-P 2c") ∧ HasPositions (hall "-P 2c") (positionsOf "-P 2c") ∧
    (hall "-P 2c").latticeSymbol.minusSign = true :=
  ⟨consistent_by_check (by decide +kernel), positionsOf_spec (by decide +kernel), by decide +kernel⟩

/-- The centring vector of `I` forbids `100`. -/
example : (⟨6, 6, 6⟩ : V3) ∈ (hall "I 4").latticeSymbol.translations ∧ ¬ (12 : Int) ∣ V3.dot ⟨1, 0, 0⟩ ⟨6, 6, 6⟩ := by
  decide +kernel

end Verif
