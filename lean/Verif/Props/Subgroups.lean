import Verif.Spec.Subgroup
import Verif.Proofs.Lagrange
import Verif.Props.Canonical

/-! # Comparing the positions of two notations (C81), orders of the point groups (C82), the leading minus (C83) -/

namespace Verif

open HallSymbolNotation

/-! ## C81 -/

/-- C81. Naming more gives a larger group. -/
theorem more_symbols_larger_group {n n' : HallSymbolNotation} (h : NamesLess n n') {f : Pt → Pt} (hf : SpaceGroup n f) :
    SpaceGroup n' f := by
  induction hf with
  | one => exact .one
  | cell k => exact .cell k
  | centring hv => exact .centring (h.lattice _ hv)
  | inversion hm => exact .inversion (h.minus hm)
  | @generator s g hs hg => rw [h.shift]; exact .generator (h.symbols s hs) hg
  | comp _ _ ih1 ih2 => exact ih1.comp ih2
  | inv _ h1 h2 ih => exact ih.inv h1 h2

theorem translations_of_char {l l' : LatticeSymbol} (h : l.char = l'.char) : l.translations = l'.translations := by
  unfold LatticeSymbol.translations; rw [h]

/-- C81. With the same lattice letter, a notation that names less than a consistent one is consistent. -/
theorem fewer_symbols_consistent {n n' : HallSymbolNotation} (h : NamesLess n n')
    (hc : n.latticeSymbol.char = n'.latticeSymbol.char) (hn' : Consistent n') : Consistent n := by
  intro f hf ht
  obtain ⟨v, hv, k, e⟩ := hn' f (more_symbols_larger_group h hf) ht
  exact ⟨v, by rw [translations_of_char hc]; exact hv, k, e⟩

theorem rotations_one (n : HallSymbolNotation) : M3.one ∈ PointGroup n :=
  ⟨id, .one, M4.one, rfl, (M4.act_mk_one _ _ _ rfl).symm⟩

theorem rotations_mul {n : HallSymbolNotation} {a b : M3} (ha : a ∈ PointGroup n) (hb : b ∈ PointGroup n) :
    a.mul b ∈ PointGroup n := by
  obtain ⟨f, hf, m, rfl, rfl⟩ := ha
  obtain ⟨g, hg, m', rfl, rfl⟩ := hb
  exact ⟨_, hf.comp hg, _, rfl, M4.act_comp m m'⟩

theorem pointGroup_rotations {n : HallSymbolNotation} {g : GeneralPositions} (h : HasPositions n g) :
    FiniteRotations (PointGroup n) ∧ ∀ r ∈ PointGroup n, r.Unimod := by
  refine ⟨⟨(point_group_le_positions h).1, rotations_one n, fun a ha b hb => rotations_mul ha hb⟩, ?_⟩
  rintro r ⟨f, hf, m, rfl, rfl⟩
  exact hf.unimod

/-- The rotations of a notation depend on its leading `-` and its matrix symbols only. -/
theorem pointGroup_mono {n n' : HallSymbolNotation} (hm : n.latticeSymbol.minusSign = true → n'.latticeSymbol.minusSign = true)
    (hs : ∀ s ∈ n.matrixSymbols, s ∈ n'.matrixSymbols) {g' : GeneralPositions} (hg' : HasPositions n' g') :
    PointGroup n ⊆ PointGroup n' := by
  refine pointGroup_subset (pointGroup_rotations hg').1 ?_ ?_
  · intro h
    exact ⟨_, .inversion (hm h), M4.inversion, rfl, inversion_act⟩
  · intro s h g hg
    refine ⟨_, .generator (hs s h) hg, _, ?_, shifted_act _ _⟩
    rfl

theorem translations_dvd {l l' : LatticeSymbol} (h : ∀ v ∈ l.translations, v ∈ l'.translations) :
    l.translations.length ∣ l'.translations.length := by
  unfold LatticeSymbol.translations at *
  generalize l.char = c at *
  generalize l'.char = c' at *
  revert h
  cases c <;> cases c' <;> decide

theorem full_length {n : HallSymbolNotation} {g : GeneralPositions} (h : HasPositions n g) :
    g.deriveFullSets.flatten.length = n.latticeSymbol.translations.length * g.numOfGeneralPos := by
  obtain ⟨k, hk⟩ := h
  obtain ⟨st, hF, hp, hl⟩ := final_of_ok hk
  rw [← hl]
  unfold GeneralPositions.deriveFullSets GeneralPositions.numOfGeneralPos
  induction g.latticeTranslations with
  | nil => simp
  | cons v l ih => simp_all [Nat.succ_mul, Nat.add_comm]

/-- C81. For consistent notations, every operation listed for the notation that names less is listed, as the same matrix,
for the one that names more, and the numbers of positions divide one another. -/
theorem more_symbols_list_more {n n' : HallSymbolNotation} {g g' : GeneralPositions} (h : NamesLess n n')
    (hn : Consistent n) (hn' : Consistent n') (hg : HasPositions n g) (hg' : HasPositions n' g') :
    (∀ m ∈ g.deriveFullSets.flatten, m ∈ g'.deriveFullSets.flatten) ∧
    g.numOfGeneralPos ∣ g'.numOfGeneralPos ∧
    g.deriveFullSets.flatten.length ∣ g'.deriveFullSets.flatten.length := by
  have hd : g.numOfGeneralPos ∣ g'.numOfGeneralPos := by
    rw [(positions_form_group hg hn).2.2.2, (positions_form_group hg' hn').2.2.2]
    exact ncard_dvd (pointGroup_rotations hg).1 (pointGroup_rotations hg').1 (pointGroup_rotations hg').2
      (pointGroup_mono h.minus h.symbols hg')
  refine ⟨?_, hd, ?_⟩
  · intro m hm
    obtain ⟨set, hset, hms⟩ := List.mem_flatten.1 hm
    obtain ⟨ha, hs⟩ := positions_in_group hg set hset m hms
    obtain ⟨set', hset', m', hm', hsame⟩ := (positions_complete hg' hn' _).1 (more_symbols_larger_group h hs)
    have hmem' : m' ∈ g'.deriveFullSets.flatten := List.mem_flatten.2 ⟨set', hset', hm'⟩
    obtain ⟨na, nr⟩ := (positions_normalised hg).1 m (List.mem_append_right _ hm)
    obtain ⟨na', nr'⟩ := (positions_normalised hg').1 m' (List.mem_append_right _ hmem')
    rw [full_mem_eq hsame na na' nr nr']
    exact hmem'
  · rw [full_length hg, full_length hg']
    exact Nat.mul_dvd_mul (translations_dvd h.lattice) hd

/-- C81. The lattice letter and the origin shift play no role for the rotations: two consistent notations with the same
leading sign and the same matrix symbols list the same rotations in the same order. -/
theorem same_symbols_same_rotations {n n' : HallSymbolNotation} {g g' : GeneralPositions}
    (hm : n.latticeSymbol.minusSign = n'.latticeSymbol.minusSign) (hs : n.matrixSymbols = n'.matrixSymbols)
    (hn : Consistent n) (hn' : Consistent n') (hg : HasPositions n g) (hg' : HasPositions n' g') :
    g.corePositionSet.map M4.rot = g'.corePositionSet.map M4.rot := by
  obtain ⟨o, ho1, hs1⟩ := core_rots_sorted hn hg
  obtain ⟨o', ho1', hs1'⟩ := core_rots_sorted hn' hg'
  have ho : o = o' := by
    unfold matriceOrder at ho1 ho1'
    rw [hs] at ho1
    rw [ho1] at ho1'
    exact Except.ok.inj ho1'
  subst ho
  have hpg : PointGroup n = PointGroup n' :=
    Set.Subset.antisymm (pointGroup_mono (fun h => hm ▸ h) (fun s h => hs ▸ h) hg')
      (pointGroup_mono (fun h => hm.symm ▸ h) (fun s h => hs.symm ▸ h) hg)
  have hirr : Std.Irrefl (KeyLt o) := ⟨by
    rintro a ⟨i, j, h1, h2, h3⟩
    rw [h1] at h2; cases h2; omega⟩
  have hanti : Std.Antisymm (KeyLt o) := ⟨by
    rintro a b ⟨i, j, h1, h2, h3⟩ ⟨i', j', h1', h2', h3'⟩
    rw [h1] at h2'; rw [h2] at h1'; cases h2'; cases h1'; omega⟩
  refine List.Pairwise.eq_of_mem_iff hs1 hs1' fun r => ?_
  have e1 := rotations_are_point_group hg
  have e2 := rotations_are_point_group hg'
  have : r ∈ PointGroup n ↔ r ∈ PointGroup n' := by rw [hpg]
  rw [e1, e2] at this
  simpa using this

/-- `P 2c` names less than `-C 2c 2`; 2 positions against 8, 2 operations against 16. -/
example : NamesLess (hall "P 2c") (hall "-C 2c 2") ∧ Consistent (hall "P 2c") ∧ Consistent (hall "-C 2c 2") ∧
    HasPositions (hall "P 2c") (positionsOf "P 2c") ∧ HasPositions (hall "-C 2c 2") (positionsOf "-C 2c 2") ∧
    (positionsOf "P 2c").numOfGeneralPos = 2 ∧ (positionsOf "-C 2c 2").numOfGeneralPos = 8 :=
  ⟨⟨by decide +kernel, by decide +kernel, by decide +kernel, by decide +kernel⟩,
    consistent_by_check (by decide +kernel), consistent_by_check (by decide +kernel), positionsOf_spec (by decide +kernel),
    positionsOf_spec (by decide +kernel), by decide +kernel, by decide +kernel⟩

/-! ## C82 -/

theorem cell_group {n : HallSymbolNotation} (h : n.matrixSymbols ≠ []) :
    ∃ T : Set M3, FiniteRotations T ∧ (∀ r ∈ T, r.Unimod) ∧ (∀ r, r ∈ T ↔ FitsFirstSymbol n r) ∧
      T.ncard = cellSymmetries n := by
  obtain ⟨order, ho⟩ := matriceOrder_ok h
  obtain ⟨L, _, hfit, hfin, _⟩ := order_rots ho
  have mk : ∀ L' : List M3, (L'.all fun r => decide (r.det = 1 ∨ r.det = -1)) = true → L'.Nodup →
      (∀ r, r ∈ L' ↔ FitsFirstSymbol n r) → L'.length = cellSymmetries n →
      ∃ T : Set M3, FiniteRotations T ∧ (∀ r ∈ T, r.Unimod) ∧ (∀ r, r ∈ T ↔ FitsFirstSymbol n r) ∧
        T.ncard = cellSymmetries n := by
    intro L' h1 h2 h3 h4
    have e : ({r | r ∈ L'} : Set M3) = {r | r ∈ L} := by
      ext r; change r ∈ L' ↔ r ∈ L; rw [h3 r, hfit r]
    refine ⟨{r | r ∈ L'}, e ▸ hfin, ?_, h3, ?_⟩
    · intro r hr
      have := List.all_eq_true.1 h1 r hr
      rw [decide_eq_true_eq] at this
      exact this
    · have : ({r | r ∈ L'} : Set M3) = (L'.toFinset : Set M3) := by ext; simp
      rw [this, Set.ncard_coe_finset, List.toFinset_card_of_nodup h2, h4]
  have hrh : ∀ r, r ∈ rhombList ↔ r.Rhombohedral := by
    intro r
    simp only [rhombList, List.mem_filter, ← cubic_iff_mem, decide_eq_true_eq]
    rfl
  have c1 := mk cubicList (by decide +kernel) (by decide +kernel)
  have c2 := mk hexList (by decide +kernel) (by decide +kernel)
  have c3 := mk rhombList (by decide +kernel) (by decide +kernel)
  rw [show cubicList.length = 48 from cubicList_length] at c1
  rw [show hexList.length = 24 from hexList_length] at c2
  rw [show rhombList.length = 12 by decide +kernel] at c3
  clear mk
  unfold FitsFirstSymbol cellSymmetries at *
  cases hm : n.matrixSymbols with
  | nil => exact absurd hm h
  | cons m ms =>
    rw [hm] at c1 c2 c3
    simp only [] at c1 c2 c3 ⊢
    generalize m.nfoldBody = b at *
    generalize m.nfoldDiag = d at *
    cases b <;> cases d <;>
      first
      | exact c1 (fun r => (cubic_iff_mem r).symm) rfl
      | exact c2 (fun r => (hexagonal_iff_mem r).symm) rfl
      | exact c3 hrh rfl

/-- C82. The number of general positions of a consistent notation divides the number of symmetries of the cell its first
symbol selects (48, 24 or 12). -/
theorem positions_divide_cell {n : HallSymbolNotation} {g : GeneralPositions} (hn : Consistent n) (hg : HasPositions n g) :
    g.numOfGeneralPos ∣ cellSymmetries n := by
  obtain ⟨h1, h2, -⟩ := (positions_exist_iff n).1 ⟨g, hg⟩
  obtain ⟨T, t1, t2, t3, t4⟩ := cell_group h1
  rw [(positions_form_group hg hn).2.2.2, ← t4]
  refine ncard_dvd (pointGroup_rotations hg).1 t1 t2 ?_
  intro r hr
  rw [t3]
  refine pointGroup_fits h1 ?_ r hr
  intro s hs m' hm'
  obtain ⟨m2, hm2, hf⟩ := h2 s hs
  rw [hm'] at hm2
  obtain rfl := Option.some.inj hm2
  exact hf

/-- C82. So the number of general positions is one of ten numbers. -/
theorem positions_count_values {n : HallSymbolNotation} {g : GeneralPositions} (hn : Consistent n) (hg : HasPositions n g) :
    g.numOfGeneralPos ∈ [1, 2, 3, 4, 6, 8, 12, 16, 24, 48] := by
  have h := positions_divide_cell hn hg
  have h48 : cellSymmetries n ∣ 48 := by
    obtain ⟨h1, -⟩ := (positions_exist_iff n).1 ⟨g, hg⟩
    unfold cellSymmetries
    split
    · contradiction
    · split <;> decide
  have hd := h.trans h48
  have key : ∀ k ∈ Nat.divisors 48, k ∈ [1, 2, 3, 4, 6, 8, 12, 16, 24, 48] := by decide +kernel
  exact key _ (Nat.mem_divisors.2 ⟨hd, by decide⟩)

/-- All three kinds of cell occur: 3 of 24 (`P 3`), 6 of 12 (`-P 3*`), 16 of 48 (`-P 4 2`). -/
example : Consistent (hall "P 3") ∧ HasPositions (hall "P 3") (positionsOf "P 3") ∧
    (positionsOf "P 3").numOfGeneralPos = 3 ∧ cellSymmetries (hall "P 3") = 24 ∧
    Consistent (hall "-P 3*") ∧ HasPositions (hall "-P 3*") (positionsOf "-P 3*") ∧
    (positionsOf "-P 3*").numOfGeneralPos = 6 ∧ cellSymmetries (hall "-P 3*") = 12 ∧
    Consistent (hall "-P 4 2") ∧ HasPositions (hall "-P 4 2") (positionsOf "-P 4 2") ∧
    (positionsOf "-P 4 2").numOfGeneralPos = 16 ∧ cellSymmetries (hall "-P 4 2") = 48 :=
  ⟨consistent_by_check (by decide +kernel), positionsOf_spec (by decide +kernel), by decide +kernel, by decide +kernel,
    consistent_by_check (by decide +kernel), positionsOf_spec (by decide +kernel), by decide +kernel, by decide +kernel,
    consistent_by_check (by decide +kernel), positionsOf_spec (by decide +kernel), by decide +kernel, by decide +kernel⟩

/-! ## C83 -/

theorem namesLess_withMinus (n : HallSymbolNotation) : NamesLess n n.withMinus :=
  ⟨fun _ h => h, fun _ => rfl, fun _ h => h, rfl⟩

/-- For a notation that stays consistent with a leading `-`, conjugation by the inversion keeps the group. -/
theorem conj_inversion {n : HallSymbolNotation} (hn : Consistent n.withMinus) {f : Pt → Pt} (hf : SpaceGroup n f) :
    SpaceGroup n (M4.inversion.act ∘ f ∘ M4.inversion.act) := by
  obtain ⟨a, rfl, ha, hu⟩ := hf.isOp
  have hi : SpaceGroup n.withMinus M4.inversion.act := by rw [← inversion_act]; exact .inversion rfl
  have hA := more_symbols_larger_group (namesLess_withMinus n) hf
  have hB := hi.comp (hA.comp hi)
  have e : M4.inversion.act ∘ a.act ∘ M4.inversion.act = M4.act ⟨a.rot, a.tr.neg, V3.zero, 1⟩ := by
    funext p
    simp only [Function.comp, M4.act, M4.inversion, M3.one, M3.map, V3.zero, V3.neg, Pt.mk.injEq]
    push_cast
    refine ⟨?_, ?_, ?_⟩ <;> ring
  rw [e] at hB ⊢
  obtain ⟨τ, hτ, e'⟩ := eq_lattice_comp (a := ⟨a.rot, a.tr.neg, V3.zero, 1⟩) (b := a) rfl (hn.latCong hB hA rfl)
  rw [e']
  exact (SpaceGroup.lattice (n := n) hτ).comp hf

theorem inversion_twice : M4.inversion.act ∘ M4.inversion.act = id := by
  funext p
  ext <;> simp [M4.act, M4.inversion, M3.one, M3.map, V3.zero]

/-- C83. A leading `-` adds exactly the operations of the group followed by the inversion at the origin: for a notation
that stays consistent, `f` belongs to the group with `-` exactly when `f`, or `f` after the inversion, belongs to the group
without. -/
theorem leading_minus_group {n : HallSymbolNotation} (hn : Consistent n.withMinus) (f : Pt → Pt) :
    SpaceGroup n.withMinus f ↔ SpaceGroup n f ∨ SpaceGroup n (fun p => f ⟨-p.x, -p.y, -p.z⟩) := by
  have hi : SpaceGroup n.withMinus M4.inversion.act := by rw [← inversion_act]; exact .inversion rfl
  have e : (fun p : Pt => f ⟨-p.x, -p.y, -p.z⟩) = f ∘ M4.inversion.act := by rw [← inversion_act]; rfl
  rw [e]
  constructor
  · intro hf
    clear e
    induction hf with
    | one => exact .inl .one
    | cell k => exact .inl (.cell k)
    | centring hv => exact .inl (.centring hv)
    | inversion _ => right; rw [inversion_act, inversion_twice]; exact .one
    | generator hs hg => exact .inl (.generator hs hg)
    | @comp a b _ _ iha ihb =>
      rcases iha with ha | ha <;> rcases ihb with hb | hb
      · exact .inl (ha.comp hb)
      · exact .inr (ha.comp hb)
      · right
        have := ha.comp (conj_inversion hn hb)
        have e : (a ∘ M4.inversion.act) ∘ M4.inversion.act ∘ b ∘ M4.inversion.act = (a ∘ b) ∘ M4.inversion.act := by
          rw [Function.comp_assoc, ← Function.comp_assoc M4.inversion.act, inversion_twice]; rfl
        rw [← e]; exact this
      · left
        have := ha.comp (conj_inversion hn hb)
        have e : (a ∘ M4.inversion.act) ∘ M4.inversion.act ∘ (b ∘ M4.inversion.act) ∘ M4.inversion.act = a ∘ b := by
          rw [Function.comp_assoc, ← Function.comp_assoc M4.inversion.act, inversion_twice, Function.comp_assoc b,
            inversion_twice]; rfl
        rw [← e]; exact this
    | @inv a b _ h1 h2 ih =>
      rcases ih with h | h
      · exact .inl (h.inv h1 h2)
      · right
        have e1 : (a ∘ M4.inversion.act) ∘ (M4.inversion.act ∘ b) = id := by
          rw [Function.comp_assoc, ← Function.comp_assoc M4.inversion.act, inversion_twice, Function.id_comp, h1]
        have e2 : (M4.inversion.act ∘ b) ∘ (a ∘ M4.inversion.act) = id := by
          rw [Function.comp_assoc, ← Function.comp_assoc b, h2, Function.id_comp, inversion_twice]
        have h3 := conj_inversion hn (h.inv e1 e2)
        have e3 : M4.inversion.act ∘ (M4.inversion.act ∘ b) ∘ M4.inversion.act = b ∘ M4.inversion.act := by
          rw [← Function.comp_assoc, ← Function.comp_assoc, inversion_twice]; rfl
        rw [← e3]; exact h3
  · rintro (h | h)
    · exact more_symbols_larger_group (namesLess_withMinus n) h
    · have := (more_symbols_larger_group (namesLess_withMinus n) h).comp hi
      rw [Function.comp_assoc, inversion_twice] at this
      exact this

theorem mul_inversion_rot (r : M3) : r.mul M4.inversion.rot = r.map (fun v => -v) := by
  ext <;> simp [M3.mul, M4.inversion, M3.one, M3.map]

theorem minus_rotations {n : HallSymbolNotation} (hn : Consistent n.withMinus) :
    PointGroup n.withMinus = PointGroup n ∪ (fun r => r.mul M4.inversion.rot) '' PointGroup n := by
  have sq : M4.inversion.rot.mul M4.inversion.rot = M3.one := by decide
  ext r
  constructor
  · rintro ⟨f, hf, m, rfl, rfl⟩
    rcases (leading_minus_group hn _).1 hf with h | h
    · exact .inl ⟨_, h, m, rfl, rfl⟩
    · right
      have e : (fun p : Pt => m.act ⟨-p.x, -p.y, -p.z⟩) = m.act ∘ M4.inversion.act := by rw [← inversion_act]; rfl
      rw [e, M4.act_comp] at h
      refine ⟨m.rot.mul M4.inversion.rot, ⟨_, h, _, rfl, rfl⟩, ?_⟩
      change (m.rot.mul M4.inversion.rot).mul M4.inversion.rot = m.rot
      rw [M3.mul_assoc, sq, M3.mul_one]
  · have hle : PointGroup n ⊆ PointGroup n.withMinus := by
      rintro r ⟨f, hf, m, h1, h2⟩
      exact ⟨f, more_symbols_larger_group (namesLess_withMinus n) hf, m, h1, h2⟩
    have hi : M4.inversion.rot ∈ PointGroup n.withMinus := ⟨_, .inversion rfl, M4.inversion, rfl, inversion_act⟩
    rintro (h | ⟨r', h, rfl⟩)
    · exact hle h
    · exact rotations_mul (hle h) hi

/-- C83. A leading `-` keeps the number of general positions when an operation with rotation part -1 is listed already and
doubles it otherwise. -/
theorem leading_minus_count {n : HallSymbolNotation} {g g' : GeneralPositions} (hn : Consistent n.withMinus)
    (hg : HasPositions n g) (hg' : HasPositions n.withMinus g') :
    ((∃ m ∈ g.corePositionSet, m.rot = M3.one.map (fun v => -v)) → g'.numOfGeneralPos = g.numOfGeneralPos) ∧
    ((¬ ∃ m ∈ g.corePositionSet, m.rot = M3.one.map (fun v => -v)) → g'.numOfGeneralPos = 2 * g.numOfGeneralPos) := by
  have hn0 : Consistent n := fewer_symbols_consistent (namesLess_withMinus n) rfl hn
  obtain ⟨hR, hU⟩ := pointGroup_rotations hg
  have hi : M4.inversion.rot = M3.one.map (fun v => -v) := by decide
  have hu : M4.inversion.rot.Unimod := .inr (by decide)
  have hmem : (∃ m ∈ g.corePositionSet, m.rot = M3.one.map (fun v => -v)) ↔ M4.inversion.rot ∈ PointGroup n := by
    rw [rotations_are_point_group hg, ← hi]; rfl
  rw [hmem, (positions_form_group hg hn0).2.2.2, (positions_form_group hg' hn).2.2.2, minus_rotations hn]
  have hinj : Function.Injective (fun r : M3 => r.mul M4.inversion.rot) := fun a b e => M3.mul_right_cancel hu e
  constructor
  · intro h
    congr 1
    refine Set.union_eq_left.2 ?_
    rintro _ ⟨r, hr, rfl⟩
    exact rotations_mul hr h
  · intro h
    rw [Set.ncard_union_eq ?_ hR.finite (hR.finite.image _), Set.ncard_image_of_injective _ hinj, two_mul]
    rw [Set.disjoint_left]
    rintro r hr ⟨s, hs, rfl⟩
    apply h
    have := rotations_mul (uinv_mem_of_finite hR.finite hR.mul hR.one hs (hU s hs)) hr
    rwa [← M3.mul_assoc, M3.uinv_mul (hU s hs), M3.one_mul] at this

/-- Both cases occur: `P 2` has 2 positions and `-P 2` has 4; `P -1` and `-P -1` have 2 each. -/
example : (hall "P 2").withMinus = hall "-P 2" ∧ Consistent (hall "P 2").withMinus ∧
    HasPositions (hall "P 2") (positionsOf "P 2") ∧ HasPositions (hall "P 2").withMinus (positionsOf "-P 2") ∧
    (positionsOf "P 2").numOfGeneralPos = 2 ∧ (positionsOf "-P 2").numOfGeneralPos = 4 := by
  have e : (hall "P 2").withMinus = hall "-P 2" := by decide +kernel
  rw [e]
  exact ⟨rfl, consistent_by_check (by decide +kernel), positionsOf_spec (by decide +kernel),
    positionsOf_spec (by decide +kernel), by decide +kernel, by decide +kernel⟩

example : (hall "P -1").withMinus = hall "-P -1" ∧ Consistent (hall "P -1").withMinus ∧
    HasPositions (hall "P -1") (positionsOf "P -1") ∧ HasPositions (hall "P -1").withMinus (positionsOf "-P -1") ∧
    (positionsOf "P -1").numOfGeneralPos = 2 ∧ (positionsOf "-P -1").numOfGeneralPos = 2 := by
  have e : (hall "P -1").withMinus = hall "-P -1" := by decide +kernel
  rw [e]
  exact ⟨rfl, consistent_by_check (by decide +kernel), positionsOf_spec (by decide +kernel),
    positionsOf_spec (by decide +kernel), by decide +kernel, by decide +kernel⟩

end Verif
