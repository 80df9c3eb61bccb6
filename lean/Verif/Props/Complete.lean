import Verif.Rows.Superlattice
import Verif.Props.Types
import Verif.Props.Classes
import Verif.Props.Letter

/-! # The 230 types (C98) -/

namespace Verif
open Arith

/-- The group of the notation is of the type of row `k - 1` of the default table, whose space-group number is `k`. -/
def HasTypeNumber (n : HallSymbolNotation) (k : Nat) : Prop :=
  ∃ code h n', defaultTable.getNumber (k - 1) = some code ∧ spaceGroupNumber code = k ∧ defaultTable.getHall (k - 1) = some h ∧
    HallSymbolNotation.tryFromStr h.toList = some n' ∧ SameType n n'

/-- Class and number of every representative. -/
def repKeys : List (Nat × Nat) :=
  (classes.zipIdx.map fun e => (List.range e.1.reps.length).map fun i => (e.2, i)).flatten

set_option maxRecDepth 100000 in
theorem repKeys_length : repKeys.length = 230 := by decide +kernel

theorem mem_repKeys {n : HallSymbolNotation} {j : Nat} {c : Cls} {i : Nat} (hc : classes[j]? = some c) (h : HasRep n c i) :
    (j, i) ∈ repKeys := by
  obtain ⟨u, hu, -⟩ := h
  refine List.mem_flatten.2 ⟨_, List.mem_map.2 ⟨(c, j), ?_, rfl⟩, List.mem_map.2 ⟨i, ?_, rfl⟩⟩
  · exact List.mem_zipIdx_iff_getElem?.2 hc
  · exact List.mem_range.2 (List.getElem?_eq_some_iff.1 hu).1

/-- Every notation has a key. -/
theorem key_exists {n : HallSymbolNotation} {g : GeneralPositions} (hg : HasPositions n g) :
    ∃ k : Nat × Nat, ∃ c, classes[k.1]? = some c ∧ HasRep n c k.2 := by
  have hone : M3.one ∈ PointGroup n := (spaceLike_own n).rot_mem (own_whole n integral_zero)
  obtain ⟨j, c, i, h1, h2⟩ := rep_of_fits (fits_common_cell (pointGroup_fits_cell hg) hone)
  exact ⟨(j, i), c, h1, h2⟩

/-- C98. For every notation with general positions, tabulated or not, consistent or not, there is exactly one number from 1 to
230 such that an orientation-preserving change of basis and origin turns its group into the one the default table lists under
that number. -/
theorem one_of_230_types {n : HallSymbolNotation} {g : GeneralPositions} (hg : HasPositions n g) :
    ∃! k : Nat, (1 ≤ k ∧ k ≤ 230) ∧ HasTypeNumber n k := by
  classical
  have hrow : ∀ i : Fin 230, ∃ h n' code, defaultTable.getHall i = some h ∧ HallSymbolNotation.tryFromStr h.toList = some n' ∧
      defaultTable.getNumber i = some code ∧ spaceGroupNumber code = i + 1 ∧
      ∃ k : Nat × Nat, ∃ c, classes[k.1]? = some c ∧ HasRep n' c k.2 := by
    intro i
    obtain ⟨code, k1, k2⟩ := (every_number (i + 1) (by omega) (by omega)).2
    rw [Nat.add_sub_cancel] at k1
    have hl : Data.defaultHallName.length = 230 := by decide +kernel
    have hh : defaultTable.getHall i = some (Data.defaultHallName[i.1]'(by omega)) :=
      List.getElem?_eq_getElem (show i.1 < Data.defaultHallName.length by omega)
    obtain ⟨n', g', cc, h1, h2, h3, h4, -⟩ := tabulated_usable _ _ (.inr ⟨i, k1, hh⟩)
    exact ⟨_, n', code, hh, h2, k1, k2, key_exists h3⟩
  choose h n' code hh hn' hc hnum key c hcls hrep using hrow
  have hinj : Function.Injective key := by
    intro i j e
    have ec : c i = c j := by
      have := hcls i
      rw [e, hcls j] at this
      exact (Option.some.inj this).symm
    have := same_rep (hrep i) (by rw [e, ec]; exact hrep j)
    exact Fin.ext ((default_types_distinct (hh i) (hh j) (hn' i) (hn' j)).1 this)
  have himg : Finset.univ.image key = repKeys.toFinset := by
    refine Finset.eq_of_subset_of_card_le ?_ ?_
    · intro k hk
      obtain ⟨i, -, rfl⟩ := Finset.mem_image.1 hk
      exact List.mem_toFinset.2 (mem_repKeys (hcls i) (hrep i))
    · rw [Finset.card_image_of_injective _ hinj, Finset.card_univ, Fintype.card_fin, ← repKeys_length]
      exact List.toFinset_card_le _
  obtain ⟨k, c', hk1, hk2⟩ := key_exists hg
  have hk : k ∈ Finset.univ.image key := by rw [himg]; exact List.mem_toFinset.2 (mem_repKeys hk1 hk2)
  obtain ⟨i, -, rfl⟩ := Finset.mem_image.1 hk
  have ec : c' = c i := by
    rw [hcls i] at hk1
    exact (Option.some.inj hk1).symm
  have hsame : SameType n (n' i) := same_rep hk2 (by rw [ec]; exact hrep i)
  refine ⟨i + 1, ⟨⟨by omega, by omega⟩, code i, h i, n' i, ?_, hnum i, ?_, hn' i, hsame⟩, ?_⟩
  · rw [Nat.add_sub_cancel]; exact hc i
  · rw [Nat.add_sub_cancel]; exact hh i
  · rintro k ⟨⟨l1, l2⟩, code', h', m, e1, e2, e3, e4, e5⟩
    have := (default_types_distinct (hh i) e3 (hn' i) e4).1 (hsame.symm.trans e5)
    omega

/-- A symbol of neither table, with its screw axis along a: its number is 76, as the symbol `P 41` has. -/
theorem sample_76 : HasPositions (hall "P 4xu") (positionsOf "P 4xu") ∧ HasTypeNumber (hall "P 4xu") 76 ∧
    ¬ HasTypeNumber (hall "P 4xu") 78 := by
  have h2 : HasPositions (hall "P 4xu") (positionsOf "P 4xu") := positionsOf_spec (by decide +kernel)
  have h3 : HasTypeNumber (hall "P 4xu") 76 := by
    refine ⟨"76", "P 41", hall "P 41", by decide +kernel, by decide +kernel, by decide +kernel, by decide +kernel, ?_⟩
    have hms : (hall "P 4xu").seitzMatrices = some ((hall "P 4xu").seitzMatrices.getD []) := by decide +kernel
    have hms' : (hall "P 41").seitzMatrices = some ((hall "P 41").seitzMatrices.getD []) := by decide +kernel
    exact sameType_of_moves (c := ⟨⟨0, 1, 0, 0, 0, 1, 1, 0, 0⟩, ⟨0, 0, 0⟩, 1⟩) (e := ⟨⟨0, 0, 1, 1, 0, 0, 0, 1, 0⟩, ⟨0, 0, 0⟩, 1⟩)
      hms hms' (certList_inGroup hms) (certList_inGroup hms') (by decide +kernel) (by decide +kernel) (by decide +kernel)
  refine ⟨h2, h3, fun h4 => ?_⟩
  have := (one_of_230_types h2).unique ⟨by decide, h3⟩ ⟨by decide, h4⟩
  omega

theorem half_not_whole (k : Int) : (12 * k : ℚ) ≠ 6 := by
  intro h
  have : (12 * k : Int) = 6 := by exact_mod_cast h
  omega

theorem sameType_of_iff {n n' : HallSymbolNotation} (h : ∀ f, SpaceGroup n f ↔ SpaceGroup n' f) : SameType n n' :=
  sameKind_of_iff h

/-- A notation that is not consistent: its glide planes generate the lattice of letter F, and its number is 43. -/
theorem sample_43 : HasPositions (hall "P 2 -2d") (positionsOf "P 2 -2d") ∧ ¬ Consistent (hall "P 2 -2d") ∧
    HasTypeNumber (hall "P 2 -2d") 43 := by
  have hms : (hall "P 2 -2d").seitzMatrices = some ((hall "P 2 -2d").seitzMatrices.getD []) := by decide +kernel
  have mem : ∀ m : M4, (certList (hall "P 2 -2d") ((hall "P 2 -2d").seitzMatrices.getD [])).contains m = true →
      SpaceGroup (hall "P 2 -2d") m.act := fun m hm => (certList_inGroup hms m (List.contains_iff_mem.1 hm)).2
  have hx := mem ⟨⟨-1, 0, 0, 0, 1, 0, 0, 0, 1⟩, ⟨3, 3, 3⟩, ⟨0, 0, 0⟩, 1⟩ (by decide +kernel)
  have hy := mem ⟨⟨1, 0, 0, 0, -1, 0, 0, 0, 1⟩, ⟨9, 9, 3⟩, ⟨0, 0, 0⟩, 1⟩ (by decide +kernel)
  have hx2 : SpaceGroup (hall "P 2 -2d") (fun p => p.addTwelfths ⟨0, 6, 6⟩) := by
    convert hx.comp hx using 1
    funext p
    simp only [Function.comp_apply, M4.act, Pt.addTwelfths]
    push_cast
    ext <;> simp only [] <;> ring
  have hy2 : SpaceGroup (hall "P 2 -2d") (fun p => p.addTwelfths ⟨6, 0, 6⟩) := by
    convert (SpaceGroup.cell ⟨-1, 0, 0⟩).comp (hy.comp hy) using 1
    funext p
    simp only [Function.comp_apply, M4.act, Pt.addTwelfths, Pt.addCell]
    push_cast
    ext <;> simp only [] <;> ring
  have hz2 : SpaceGroup (hall "P 2 -2d") (fun p => p.addTwelfths ⟨6, 6, 0⟩) := by
    convert (SpaceGroup.cell ⟨0, 0, -1⟩).comp (hx2.comp hy2) using 1
    funext p
    simp only [Function.comp_apply, Pt.addTwelfths, Pt.addCell]
    push_cast
    ext <;> simp only [] <;> ring
  have e : (hall "F 2 -2d").primitive = hall "P 2 -2d" := by decide +kernel
  have em : (hall "F 2 -2d").matrixSymbols = (hall "P 2 -2d").matrixSymbols := by decide +kernel
  have eo : (hall "F 2 -2d").originShift = (hall "P 2 -2d").originShift := by decide +kernel
  have ei : (hall "F 2 -2d").latticeSymbol.minusSign = false := by decide +kernel
  have hl : (hall "F 2 -2d").latticeSymbol.translations = [⟨0, 0, 0⟩, ⟨0, 6, 6⟩, ⟨6, 0, 6⟩, ⟨6, 6, 0⟩] := by decide +kernel
  have heq : ∀ f, SpaceGroup (hall "P 2 -2d") f ↔ SpaceGroup (hall "F 2 -2d") f := by
    clear mem hms hx hy
    generalize hall "P 2 -2d" = n at *
    generalize hall "F 2 -2d" = n' at *
    intro f
    constructor
    · rw [← e]
      exact more_symbols_larger_group (namesLess_primitive _)
    · intro h
      induction h with
      | one => exact .one
      | cell k => exact .cell k
      | @centring v hv =>
        rw [hl] at hv
        simp only [List.mem_cons, List.not_mem_nil, or_false] at hv
        rcases hv with rfl | rfl | rfl | rfl
        · convert (SpaceGroup.one (n := n)) using 1
          funext p; simp [Pt.addTwelfths]
        · exact hx2
        · exact hy2
        · exact hz2
      | inversion h => rw [ei] at h; cases h
      | @generator s g hs hg => rw [em] at hs; rw [eo]; exact .generator hs hg
      | comp _ _ h1 h2 => exact h1.comp h2
      | inv _ a b h1 => exact h1.inv a b
  have hF : SameType (hall "F 2 -2d") (hall "F 2 -2yd") := by
    have h1 : (hall "F 2 -2d").seitzMatrices = some ((hall "F 2 -2d").seitzMatrices.getD []) := by decide +kernel
    have h2 : (hall "F 2 -2yd").seitzMatrices = some ((hall "F 2 -2yd").seitzMatrices.getD []) := by decide +kernel
    exact sameType_of_moves (c := ⟨M3.one, ⟨0, 0, 0⟩, 1⟩) (e := ⟨M3.one, ⟨0, 0, 0⟩, 1⟩)
      h1 h2 (certList_inGroup h1) (certList_inGroup h2) (by decide +kernel) (by decide +kernel) (by decide +kernel)
  have hT : SameType (hall "P 2 -2d") (hall "F 2 -2yd") := (sameType_of_iff heq).trans hF
  refine ⟨positionsOf_spec (by decide +kernel), fun hn => ?_,
    "43", "F 2 -2yd", hall "F 2 -2yd", by decide +kernel, by decide +kernel, by decide +kernel, by decide +kernel, ?_⟩
  · obtain ⟨v, hv, k, h⟩ := hn _ hx2 ⟨⟨0, 1 / 2, 1 / 2⟩, fun p => by simp only [Pt.addTwelfths]; ext <;> simp only [] <;> push_cast <;> ring⟩
    have hl : (hall "P 2 -2d").latticeSymbol.translations = [⟨0, 0, 0⟩] := by decide +kernel
    rw [hl, List.mem_singleton] at hv
    subst hv
    have := congrArg Pt.y (h ⟨0, 0, 0⟩)
    simp only [Pt.addTwelfths, Pt.addCell] at this
    exact half_not_whole _ (by push_cast at this; linarith)
  · exact hT

/-- C98, for two notations: they are of the same type exactly when they have the same number. -/
theorem same_type_iff_number {n n' : HallSymbolNotation} {g' : GeneralPositions}
    (hg' : HasPositions n' g') :
    SameType n n' ↔ ∃ k, (1 ≤ k ∧ k ≤ 230) ∧ HasTypeNumber n k ∧ HasTypeNumber n' k := by
  constructor
  · intro h
    obtain ⟨k, ⟨hk, code, s, m, e1, e2, e3, e4, e5⟩, -⟩ := one_of_230_types hg'
    exact ⟨k, hk, ⟨code, s, m, e1, e2, e3, e4, h.trans e5⟩, code, s, m, e1, e2, e3, e4, e5⟩
  · rintro ⟨k, -, ⟨code, s, m, e1, e2, e3, e4, e5⟩, code', s', m', e1', e2', e3', e4', e5'⟩
    rw [e3] at e3'
    obtain rfl := Option.some.inj e3'
    rw [e4] at e4'
    obtain rfl := Option.some.inj e4'
    exact e5.trans e5'.symm

end Verif
