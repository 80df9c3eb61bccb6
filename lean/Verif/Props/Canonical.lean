import Mathlib.Data.List.Sort
import Verif.Proofs.RowFacts
import Verif.Props.Generation
import Verif.Props.Success
import Verif.Props.Text

/-! # The positions depend on the group only (C72) -/

namespace Verif

open HallSymbolNotation

/-- Specification: the two notations denote the same group of maps of space. -/
def SameGroup (n n' : HallSymbolNotation) : Prop := ∀ f, SpaceGroup n f ↔ SpaceGroup n' f

theorem SameGroup.symm {n n' : HallSymbolNotation} (h : SameGroup n n') : SameGroup n' n := fun f => (h f).symm

theorem SameGroup.upToOrigin {n n' : HallSymbolNotation} (h : SameGroup n n') : SameUpToOrigin n n' := by
  refine ⟨⟨0, 0, 0⟩, fun f => ?_⟩
  have : movedBy ⟨0, 0, 0⟩ f = f := by funext p; simp [movedBy]
  rw [this]; exact h f

/-- The rotations of a computed list fit the cell, so their entries are -1, 0 or 1. -/
theorem core_small {n : HallSymbolNotation} {g : GeneralPositions} (h : HasPositions n g) :
    ∀ m ∈ g.corePositionSet, m.rot.Small := by
  obtain ⟨h1, h2, -⟩ := (positions_exist_iff n).1 ⟨g, h⟩
  intro m hm
  refine fits_small (pointGroup_fits h1 ?_ m.rot ?_)
  · intro s hs m' hm'
    obtain ⟨m2, hm2, hf⟩ := h2 s hs
    rw [hm'] at hm2
    obtain rfl := Option.some.inj hm2
    exact hf
  · rw [rotations_are_point_group h]; exact ⟨m, hm, rfl⟩

theorem full_mem_eq {a b : M4} (h : SameModCell a.act b.act) (ha : a.Affine) (hb : b.Affine)
    (ra : (0 ≤ a.tr.x ∧ a.tr.x < 12) ∧ (0 ≤ a.tr.y ∧ a.tr.y < 12) ∧ (0 ≤ a.tr.z ∧ a.tr.z < 12))
    (rb : (0 ≤ b.tr.x ∧ b.tr.x < 12) ∧ (0 ≤ b.tr.y ∧ b.tr.y < 12) ∧ (0 ≤ b.tr.z ∧ b.tr.z < 12)) : a = b := by
  obtain ⟨h1, h2, h3, h4⟩ := M4.cong_of_sameModCell h
  obtain ⟨ar, ⟨ax, ay, az⟩, ab, aw⟩ := a
  obtain ⟨br, ⟨bx, by', bz⟩, bb, bw⟩ := b
  obtain ⟨a1, a2⟩ := ha
  obtain ⟨b1, b2⟩ := hb
  simp only at *
  subst h1 a1 a2 b1 b2
  have e1 : ax = bx := by omega
  have e2 : ay = by' := by omega
  have e3 : az = bz := by omega
  subst e1 e2 e3
  rfl

theorem full_nodup {n : HallSymbolNotation} {g : GeneralPositions} (h : HasPositions n g) :
    g.deriveFullSets.flatten.Nodup := by
  refine (positions_distinct h).1.imp ?_
  rintro a b hab rfl
  exact hab ⟨V3.zero, fun p => by ext <;> simp [Pt.addCell, V3.zero]⟩

theorem full_subset {n n' : HallSymbolNotation} {g g' : GeneralPositions} (hg : HasPositions n g)
    (hg' : HasPositions n' g') (hn' : Consistent n') (h : SameGroup n n') :
    ∀ m ∈ g.deriveFullSets.flatten, m ∈ g'.deriveFullSets.flatten := by
  intro m hm
  obtain ⟨set, hset, hms⟩ := List.mem_flatten.1 hm
  obtain ⟨ha, hs⟩ := positions_in_group hg set hset m hms
  obtain ⟨set', hset', m', hm', hsame⟩ := (positions_complete hg' hn' _).1 ((h _).1 hs)
  have hmem' : m' ∈ g'.deriveFullSets.flatten := List.mem_flatten.2 ⟨set', hset', hm'⟩
  obtain ⟨na, nr⟩ := (positions_normalised hg).1 m (List.mem_append_right _ hm)
  obtain ⟨na', nr'⟩ := (positions_normalised hg').1 m' (List.mem_append_right _ hmem')
  rw [full_mem_eq hsame na na' nr nr']
  exact hmem'

/-- C72. Two consistent notations denote the same group exactly when their general positions agree: the same lattice
translations and, in some order, the same full list of operations. In particular the listed operations do not depend on
which generators, in which order, with which signs or translation letters, the notation names. -/
theorem same_group_iff_same_positions {n n' : HallSymbolNotation} {g g' : GeneralPositions} (hn : Consistent n)
    (hn' : Consistent n') (hg : HasPositions n g) (hg' : HasPositions n' g') :
    SameGroup n n' ↔ g.latticeTranslations = g'.latticeTranslations ∧
      g.deriveFullSets.flatten.Perm g'.deriveFullSets.flatten := by
  constructor
  · intro h
    constructor
    · have := sameUpToOrigin_lattice hn hn' h.upToOrigin
      obtain ⟨k, hk⟩ := hg
      obtain ⟨k', hk'⟩ := hg'
      obtain ⟨_, _, _, hl⟩ := final_of_ok hk
      obtain ⟨_, _, _, hl'⟩ := final_of_ok hk'
      rw [hl, hl']
      unfold LatticeSymbol.translations
      rw [this]
    · rw [List.perm_ext_iff_of_nodup (full_nodup hg) (full_nodup hg')]
      exact fun m => ⟨full_subset hg hg' hn' h m, full_subset hg' hg hn h.symm m⟩
  · rintro ⟨_, hp⟩ f
    rw [positions_complete hg hn, positions_complete hg' hn']
    have key : ∀ x y : GeneralPositions, x.deriveFullSets.flatten.Perm y.deriveFullSets.flatten →
        Listed x f → Listed y f := by
      rintro x y hxy ⟨set, hset, m, hm, hs⟩
      obtain ⟨set', hset', hm'⟩ := List.mem_flatten.1 (hxy.mem_iff.1 (List.mem_flatten.2 ⟨set, hset, hm⟩))
      exact ⟨set', hset', m, hm', hs⟩
    exact ⟨key _ _ hp, key _ _ hp.symm⟩

theorem sortKey_rot (order : List String) (m : M4) : sortKey order m = sortKey order ⟨m.rot, V3.zero, V3.zero, 1⟩ := by
  unfold sortKey
  rw [rotation_text_ignores_translation m ⟨m.rot, V3.zero, V3.zero, 1⟩ rfl]

/-- Before in the reference list, on rotations. -/
def KeyLt (order : List String) (a b : M3) : Prop :=
  ∃ i j, sortKey order ⟨a, V3.zero, V3.zero, 1⟩ = .ok i ∧ sortKey order ⟨b, V3.zero, V3.zero, 1⟩ = .ok j ∧ i < j

theorem orderIndex_inj {order : List String} {s t : List Char} {i : Nat} (hs : orderIndex order s = some i)
    (ht : orderIndex order t = some i) : s = t := by
  obtain ⟨⟨x, hx, rfl⟩, -⟩ := orderIndex_firstAt hs
  obtain ⟨⟨y, hy, rfl⟩, -⟩ := orderIndex_firstAt ht
  rw [hx] at hy
  rw [Option.some.inj hy]

theorem core_rots_sorted {n : HallSymbolNotation} {g : GeneralPositions} (hn : Consistent n) (hg : HasPositions n g) :
    ∃ order, n.matriceOrder = .ok order ∧ (g.corePositionSet.map M4.rot).Pairwise (KeyLt order) := by
  have hsmall := core_small hg
  obtain ⟨k, h⟩ := hg
  obtain ⟨ms, st, _, a1, a2, a3, a4, a5⟩ := generalPositions_ok h
  obtain ⟨order, ho, _, hsorted⟩ := sort_sorted a4
  have hF := final_of_rounds a1 a3
  have hnd : (g.corePositionSet.map M4.rot).Nodup := by
    rw [((sort_perm a4).map M4.rot).nodup_iff]; exact hF.rot_nodup hn
  refine ⟨order, ho, ?_⟩
  rw [List.pairwise_map]
  unfold List.Nodup at hnd
  rw [List.pairwise_map] at hnd
  refine (hsorted.and hnd).imp_of_mem ?_
  rintro a b ha hb ⟨⟨i, j, hi, hj, hij⟩, hne⟩
  refine ⟨i, j, by rw [← sortKey_rot]; exact hi, by rw [← sortKey_rot]; exact hj, ?_⟩
  refine lt_of_le_of_ne hij ?_
  rintro rfl
  apply hne
  unfold sortKey at hi hj
  cases hta : a.jonesRot with
  | error e => rw [hta] at hi; cases hi
  | ok ta =>
    cases htb : b.jonesRot with
    | error e => rw [htb] at hj; cases hj
    | ok tb =>
      rw [hta] at hi; rw [htb] at hj
      change (match orderIndex order ta with | some i => pure i | none => .error Panic.orderMismatch) = Except.ok i at hi
      change (match orderIndex order tb with | some i => pure i | none => .error Panic.orderMismatch) = Except.ok i at hj
      cases hoa : orderIndex order ta with
      | none => rw [hoa] at hi; cases hi
      | some i' =>
        cases hob : orderIndex order tb with
        | none => rw [hob] at hj; cases hj
        | some j' =>
          rw [hoa] at hi; rw [hob] at hj
          cases hi; cases hj
          refine rotation_text_injective a b (hsmall a ha) (hsmall b hb) ?_
          rw [hta, htb, orderIndex_inj hoa hob]

theorem matriceOrder_reference {n : HallSymbolNotation} {order : List String} (ho : n.matriceOrder = .ok order) :
    referenceOrder n = some order := by
  unfold matriceOrder at ho
  unfold referenceOrder
  cases hm : n.matrixSymbols with
  | nil => rw [hm] at ho; cases ho
  | cons m ms =>
    rw [hm] at ho
    simp only [] at ho ⊢
    cases hb : m.nfoldBody <;> cases hd : m.nfoldDiag <;> rw [hb, hd] at ho <;> cases ho <;> rfl

/-- C72. Same group and same reference list: the core positions agree one by one up to lattice translations. -/
theorem same_group_same_order {n n' : HallSymbolNotation} {g g' : GeneralPositions} (hn : Consistent n)
    (hn' : Consistent n') (hg : HasPositions n g) (hg' : HasPositions n' g') (h : SameGroup n n')
    (ho : referenceOrder n = referenceOrder n') :
    g.corePositionSet.length = g'.corePositionSet.length ∧
    ∀ (i : Nat) (a b : M4), g.corePositionSet[i]? = some a → g'.corePositionSet[i]? = some b →
      ∃ τ, IsLatticeTranslation n.latticeSymbol τ ∧ a.act = τ ∘ b.act := by
  obtain ⟨o, ho1, hs⟩ := core_rots_sorted hn hg
  obtain ⟨o', ho1', hs'⟩ := core_rots_sorted hn' hg'
  rw [matriceOrder_reference ho1, matriceOrder_reference ho1'] at ho
  obtain rfl := Option.some.inj ho
  have hirr : Std.Irrefl (KeyLt o) := ⟨by
    rintro a ⟨i, j, h1, h2, h3⟩
    rw [h1] at h2; cases h2; omega⟩
  have hanti : Std.Antisymm (KeyLt o) := ⟨by
    rintro a b ⟨i, j, h1, h2, h3⟩ ⟨i', j', h1', h2', h3'⟩
    rw [h1] at h2'; rw [h2] at h1'; cases h2'; cases h1'; omega⟩
  have hpg : PointGroup n = PointGroup n' := sameUpToOrigin_pointGroup h.upToOrigin
  have hrots : g.corePositionSet.map M4.rot = g'.corePositionSet.map M4.rot := by
    refine List.Pairwise.eq_of_mem_iff hs hs' fun r => ?_
    have e1 := rotations_are_point_group hg
    have e2 := rotations_are_point_group hg'
    have : r ∈ PointGroup n ↔ r ∈ PointGroup n' := by rw [hpg]
    rw [e1, e2] at this
    simpa using this
  refine ⟨by simpa using congrArg List.length hrots, ?_⟩
  intro i a b ha hb
  have hr : a.rot = b.rot := by
    have := congrArg (·[i]?) hrots
    simpa [ha, hb] using this
  have ha' := List.mem_of_getElem? ha
  have hb' := List.mem_of_getElem? hb
  obtain ⟨k, hk⟩ := hg
  obtain ⟨k', hk'⟩ := hg'
  obtain ⟨st, hF, hp, hl⟩ := final_of_ok hk
  obtain ⟨st', hF', hp', hl'⟩ := final_of_ok hk'
  have h1 := hF.inv.all a (hp.mem_iff.1 ha')
  have h2 := (h _).2 (hF'.inv.all b (hp'.mem_iff.1 hb'))
  exact eq_lattice_comp hr (hn.latCong h1 h2 hr)

/-- C72, for primitive lattices: same group and same reference list give the same `GeneralPositions`, entry by entry.
What is missing: for centred lattices the representatives can differ (`same_group_other_core`). -/
theorem same_group_same_positions_partial {n n' : HallSymbolNotation} {g g' : GeneralPositions} (hn : Consistent n)
    (hn' : Consistent n') (hg : HasPositions n g) (hg' : HasPositions n' g') (h : SameGroup n n')
    (ho : referenceOrder n = referenceOrder n') (hP : n.latticeSymbol.char = .P) : g = g' := by
  obtain ⟨hlen, hall⟩ := same_group_same_order hn hn' hg hg' h ho
  have hlt := ((same_group_iff_same_positions hn hn' hg hg').1 h).1
  have hcore : g.corePositionSet = g'.corePositionSet := by
    refine List.ext_getElem hlen fun i h1 h2 => ?_
    obtain ⟨τ, hτ, e⟩ := hall i _ _ (List.getElem?_eq_getElem h1) (List.getElem?_eq_getElem h2)
    obtain ⟨v, hv, k, hk⟩ := hτ
    have hv0 : v = V3.zero := by
      unfold LatticeSymbol.translations at hv
      rw [hP] at hv
      simpa [Lattices.translations, V3.zero] using hv
    subst hv0
    have hsame : SameModCell g.corePositionSet[i].act g'.corePositionSet[i].act := by
      refine ⟨k, fun p => ?_⟩
      rw [e]
      simp only [Function.comp]
      rw [hk]
      ext <;> simp [Pt.addTwelfths, Pt.addCell, V3.zero]
    have m1 := List.getElem_mem h1
    have m2 := List.getElem_mem h2
    obtain ⟨na, nr⟩ := (positions_normalised hg).1 _ (List.mem_append_left _ m1)
    obtain ⟨na', nr'⟩ := (positions_normalised hg').1 _ (List.mem_append_left _ m2)
    exact full_mem_eq hsame na na' nr nr'
  obtain ⟨l, c⟩ := g
  obtain ⟨l', c'⟩ := g'
  simp only at hcore hlt
  rw [hcore, hlt]

/-- A computable test of consistency for the examples. -/
theorem consistent_by_check {s : String} (h : (match (hall s).seitzMatrices with
    | some ms => checkCert (hall s) ms (certList (hall s) ms) | none => false) = true) : Consistent (hall s) := by
  cases hms : (hall s).seitzMatrices with
  | none => rw [hms] at h; cases h
  | some ms => rw [hms] at h; exact (checkCert_sound h).consistent hms

/-- The positions of a text, for the examples. -/
def positionsOf (s : String) : GeneralPositions :=
  match (hall s).generalPositions 30 with
  | some (.ok g) => g
  | _ => ⟨[], []⟩

theorem positionsOf_spec {s : String} (h : (match (hall s).generalPositions 30 with
    | some (.ok _) => true | _ => false) = true) : HasPositions (hall s) (positionsOf s) := by
  unfold positionsOf
  cases hr : (hall s).generalPositions 30 with
  | none => rw [hr] at h; cases h
  | some r =>
    cases r with
    | error e => rw [hr] at h; cases h
    | ok g => exact ⟨30, hr⟩

/-- A case of the theorems above: `-P 2c 2b` and `P 2c 2b -1` name the same group by different generators. -/
theorem same_group_sample : SameGroup (hall "-P 2c 2b") (hall "P 2c 2b -1") := by
  rw [same_group_iff_same_positions (g := positionsOf "-P 2c 2b") (g' := positionsOf "P 2c 2b -1")
    (consistent_by_check (by decide +kernel)) (consistent_by_check (by decide +kernel))
    (positionsOf_spec (by decide +kernel)) (positionsOf_spec (by decide +kernel))]
  exact ⟨by decide +kernel, by decide +kernel⟩

example : referenceOrder (hall "-P 2c 2b") = referenceOrder (hall "P 2c 2b -1") ∧
    (hall "-P 2c 2b").latticeSymbol.char = .P ∧ hall "-P 2c 2b" ≠ hall "P 2c 2b -1" ∧
    (positionsOf "-P 2c 2b").numOfGeneralPos = 8 := by decide +kernel

/-- C72 fails for the core positions of centred lattices: `I 2` and `I 2n` name the same group and print it with
different representatives. -/
theorem same_group_other_core : ∃ g g', Consistent (hall "I 2") ∧ Consistent (hall "I 2n") ∧
    SameGroup (hall "I 2") (hall "I 2n") ∧ referenceOrder (hall "I 2") = referenceOrder (hall "I 2n") ∧
    HasPositions (hall "I 2") g ∧ HasPositions (hall "I 2n") g' ∧ g ≠ g' := by
  have c1 : Consistent (hall "I 2") := consistent_by_check (by decide +kernel)
  have c2 : Consistent (hall "I 2n") := consistent_by_check (by decide +kernel)
  have p1 : HasPositions (hall "I 2") (positionsOf "I 2") := positionsOf_spec (by decide +kernel)
  have p2 : HasPositions (hall "I 2n") (positionsOf "I 2n") := positionsOf_spec (by decide +kernel)
  refine ⟨_, _, c1, c2, ?_, by decide +kernel, p1, p2, by decide +kernel⟩
  rw [same_group_iff_same_positions c1 c2 p1 p2]
  exact ⟨by decide +kernel, by decide +kernel⟩

/-! ## `==` on general positions (C73) -/

theorem coreEqv_iff (a b : List M4) : GeneralPositions.coreEqv a b = true ↔
    a.length = b.length ∧ ∀ (i : Nat) (x y : M4), a[i]? = some x → b[i]? = some y → SameModCell x.act y.act := by
  induction a generalizing b with
  | nil => cases b <;> simp [GeneralPositions.coreEqv]
  | cons m a ih =>
    cases b with
    | nil => simp [GeneralPositions.coreEqv]
    | cons m' b =>
      simp only [GeneralPositions.coreEqv, Bool.and_eq_true, ih, List.length_cons, Nat.add_right_cancel_iff]
      have hm : M4.eqv m m' = true ↔ SameModCell m.act m'.act := by
        rw [M4.eqv_iff]
        exact ⟨fun h => M4.sameModCell_of_cong h.1 h.2, M4.cong_of_sameModCell⟩
      constructor
      · rintro ⟨h1, h2, h3⟩
        refine ⟨h2, fun i x y hx hy => ?_⟩
        cases i with
        | zero =>
          simp only [List.getElem?_cons_zero, Option.some.injEq] at hx hy
          subst hx hy; exact hm.1 h1
        | succ i => exact h3 i x y (by simpa using hx) (by simpa using hy)
      · rintro ⟨h2, h3⟩
        exact ⟨hm.2 (h3 0 m m' rfl rfl), h2, fun i x y hx hy => h3 (i + 1) x y (by simpa using hx) (by simpa using hy)⟩

/-- C73. `==` on any two `GeneralPositions` compares the lattice translations literally and the operations one by one,
in order, as maps of space up to whole cells. -/
theorem positions_eq_iff (g h : GeneralPositions) : g.eqv h = true ↔
    g.latticeTranslations = h.latticeTranslations ∧ g.corePositionSet.length = h.corePositionSet.length ∧
    ∀ (i : Nat) (x y : M4), g.corePositionSet[i]? = some x → h.corePositionSet[i]? = some y →
      SameModCell x.act y.act := by
  unfold GeneralPositions.eqv
  rw [Bool.and_eq_true, coreEqv_iff, decide_eq_true_iff]

/-- C73. On results of `general_positions`, `==` is identity of every stored number; equal results of consistent symbols
mean equal groups, and for primitive lattices and the same reference list equal groups mean equal results. -/
theorem computed_positions_eq {n n' : HallSymbolNotation} {g g' : GeneralPositions} (hg : HasPositions n g)
    (hg' : HasPositions n' g') :
    (g.eqv g' = true ↔ g = g') ∧
    (Consistent n → Consistent n' → g.eqv g' = true → SameGroup n n') ∧
    (Consistent n → Consistent n' → SameGroup n n' → referenceOrder n = referenceOrder n' →
      n.latticeSymbol.char = .P → g.eqv g' = true) := by
  have key : g.eqv g' = true ↔ g = g' := by
    rw [positions_eq_iff]
    constructor
    · rintro ⟨h1, h2, h3⟩
      have hcore : g.corePositionSet = g'.corePositionSet := by
        refine List.ext_getElem h2 fun i i1 i2 => ?_
        have hs := h3 i _ _ (List.getElem?_eq_getElem i1) (List.getElem?_eq_getElem i2)
        obtain ⟨na, nr⟩ := (positions_normalised hg).1 _ (List.mem_append_left _ (List.getElem_mem i1))
        obtain ⟨na', nr'⟩ := (positions_normalised hg').1 _ (List.mem_append_left _ (List.getElem_mem i2))
        exact full_mem_eq hs na na' nr nr'
      obtain ⟨l, c⟩ := g
      obtain ⟨l', c'⟩ := g'
      simp only at hcore h1
      rw [hcore, h1]
    · rintro rfl
      refine ⟨rfl, rfl, fun i x y hx hy => ?_⟩
      rw [hx] at hy
      obtain rfl := Option.some.inj hy
      exact ⟨V3.zero, fun p => by ext <;> simp [Pt.addCell, V3.zero]⟩
  refine ⟨key, ?_, ?_⟩
  · intro hn hn' he
    obtain rfl := key.1 he
    exact (same_group_iff_same_positions hn hn' hg hg').2 ⟨rfl, List.Perm.refl _⟩
  · intro hn hn' h ho hP
    exact key.2 (same_group_same_positions_partial hn hn' hg hg' h ho hP)

/-- Positions that are `==` without being identical (they do not come from `general_positions`), and computed ones that
are not `==`. -/
example : GeneralPositions.eqv ⟨[⟨0, 0, 0⟩], [⟨M3.one, ⟨12, 0, -24⟩, V3.zero, 1⟩]⟩ ⟨[⟨0, 0, 0⟩], [M4.identity]⟩ = true ∧
    GeneralPositions.eqv (positionsOf "P 2c") (positionsOf "P 2") = false := by decide +kernel

end Verif
