import Verif.Spec.CrystalSystem
import Verif.Spec.Order
import Verif.Proofs.Classes
import Verif.Props.TableGroups
import Verif.Props.Order
import Verif.Props.Canonical

/-!
# Crystal systems and crystal classes (C95, C96)
-/

namespace Verif

/-- C95. `CrystalSystem`: a lawful order, from triclinic to cubic; the default is the least; the printed names are those of
the variants in lower case, and different. -/
theorem crystal_system_order :
    LawfulCmp CrystalSystem.cmp ∧
    [CrystalSystem.Triclinic, .Monoclinic, .Orthorhombic, .Tetragonal, .Trigonal, .Hexagonal, .Cubic].Pairwise
      (fun a b => a.cmp b = .lt) ∧
    (∀ s, CrystalSystem.default.cmp s ≠ .gt) ∧ (∀ a b : CrystalSystem, a.text = b.text → a = b) ∧
    [CrystalSystem.Triclinic, .Monoclinic, .Orthorhombic, .Tetragonal, .Trigonal, .Hexagonal, .Cubic].map CrystalSystem.text =
      ["triclinic", "monoclinic", "orthorhombic", "tetragonal", "trigonal", "hexagonal", "cubic"].map String.toList := by
  refine ⟨enumCmp _ (by intro a b; cases a <;> cases b <;> decide), by decide, ?_, ?_, by decide⟩
  · intro s; cases s <;> decide
  · intro a b; cases a <;> cases b <;> decide

/-- The rotations of computed positions. -/
theorem core_rotations {n : HallSymbolNotation} {g : GeneralPositions} (hg : HasPositions n g) :
    (∀ r, r ∈ PointGroup n ↔ ∃ m ∈ g.corePositionSet, m.rot = r) ∧ (∀ m ∈ g.corePositionSet, m.Affine) ∧
    (Consistent n → (g.corePositionSet.map M4.rot).Nodup) := by
  obtain ⟨k, h⟩ := hg
  obtain ⟨st, hF, hp, hl⟩ := final_of_ok h
  refine ⟨fun r => ?_, fun m hm => hF.inv.affine m (hp.mem_iff.1 hm), fun hn => ?_⟩
  · rw [hF.pointGroup]
    constructor
    · rintro ⟨m, hm, e⟩; exact ⟨m, hp.mem_iff.2 hm, e⟩
    · rintro ⟨m, hm, e⟩; exact ⟨m, hp.mem_iff.1 hm, e⟩
  · exact ((hp.map M4.rot).nodup_iff).2 (hF.rot_nodup hn)

theorem rotationType_rot {m : M4} (h : m.Affine) : m.rotationType = M4.rotationType ⟨m.rot, V3.zero, V3.zero, 1⟩ := by
  rw [M4.rotationType_eq m h, M4.rotationType_eq _ ⟨rfl, rfl⟩]

/-- Counting the listed operations by `rotation_type` counts the rotations of the point group. -/
theorem kindCount_eq {n : HallSymbolNotation} {g : GeneralPositions} (hn : Consistent n) (hg : HasPositions n g)
    (t : RotationType) : g.kindCount t = {r ∈ PointGroup n | typeB t r = true}.ncard := by
  classical
  obtain ⟨h1, h2, h3⟩ := core_rotations hg
  have e : ∀ m ∈ g.corePositionSet, (decide (m.rotationType = some t)) = typeB t m.rot := by
    intro m hm
    rw [rotationType_rot (h2 m hm), Bool.eq_iff_iff, decide_eq_true_iff, typeB_iff]
  unfold GeneralPositions.kindCount
  rw [List.filter_congr e]
  have hs : {r ∈ PointGroup n | typeB t r = true} =
      (((g.corePositionSet.map M4.rot).filter (typeB t)).toFinset : Set M3) := by
    ext r
    simp only [Set.mem_ofPred_eq, List.coe_toFinset, List.mem_filter, List.mem_map, h1 r]
  rw [hs, Set.ncard_coe_finset, List.toFinset_card_of_nodup ((h3 hn).filter _), List.filter_map, List.length_map]
  rfl

theorem pointGroup_fits_cell {n : HallSymbolNotation} {g : GeneralPositions} (hg : HasPositions n g) :
    ∀ r ∈ PointGroup n, FitsFirstSymbol n r := by
  obtain ⟨h1, h2, -⟩ := (positions_exist_iff n).1 ⟨g, hg⟩
  refine pointGroup_fits h1 ?_
  intro s hs m' hm'
  obtain ⟨m2, hm2, hf⟩ := h2 s hs
  rw [hm'] at hm2
  obtain rfl := Option.some.inj hm2
  exact hf

theorem fits_common_cell {n : HallSymbolNotation} {S : Set M3} (h : ∀ r ∈ S, FitsFirstSymbol n r) (hone : M3.one ∈ S) :
    (∀ r ∈ S, r.Cubic) ∨ ∀ r ∈ S, r.Hexagonal := by
  unfold FitsFirstSymbol at h
  revert h
  split
  · intro h; exact (h _ hone).elim
  · split
    · intro h; exact .inr h
    · intro h; exact .inl fun r hr => (h r hr).1
    · intro h; exact .inr h
    · intro h; exact .inl h

/-- C96. For every consistent notation, tabulated or not, the listed operations, counted by `rotation_type`, are those of
one of the 32 crystal classes; in particular every one of them has a type. -/
theorem positions_crystal_class {n : HallSymbolNotation} {g : GeneralPositions} (hn : Consistent n) (hg : HasPositions n g) :
    ∃ k cc, 1 ≤ k ∧ k ≤ 230 ∧ crystalClass k = some cc ∧ (∀ t, g.kindCount t = cc.get t) ∧
      g.numOfGeneralPos = cc.order := by
  have hmul : ∀ a ∈ PointGroup n, ∀ b ∈ PointGroup n, a.mul b ∈ PointGroup n := by
    rintro _ ⟨f, hf, m, rfl, rfl⟩ _ ⟨f', hf', m', rfl, rfl⟩
    exact ⟨_, hf.comp hf', _, rfl, M4.act_comp m m'⟩
  have hone : M3.one ∈ PointGroup n := ⟨id, .one, M4.one, rfl, (M4.act_mk_one _ _ _ rfl).symm⟩
  obtain ⟨c, hc, h⟩ : ∃ c ∈ crystalClasses, ∀ t, {r ∈ PointGroup n | typeB t r = true}.ncard = c.2.get t := by
    rcases fits_common_cell (pointGroup_fits_cell hg) hone with h | h
    · exact Subs.class_of_cubic hone hmul h
    · exact Subs.class_of_hexagonal hone hmul h
  have hall : ∀ c ∈ crystalClasses, 1 ≤ c.1 ∧ c.1 ≤ 230 ∧ crystalClass c.1 = some c.2 := by decide +kernel
  obtain ⟨a1, a2, a3⟩ := hall c hc
  have hcount : ∀ t, g.kindCount t = c.2.get t := fun t => (kindCount_eq hn hg t).trans (h t)
  refine ⟨c.1, c.2, a1, a2, a3, hcount, ?_⟩
  have hsome : ∀ m ∈ g.corePositionSet, ∃ t, m.rotationType = some t := by
    intro m hm
    obtain ⟨h1, h2, -⟩ := core_rotations hg
    have hf := fits_finiteOrder (pointGroup_fits_cell hg m.rot ((h1 _).2 ⟨m, hm, rfl⟩))
    obtain ⟨t, _, ht, _⟩ := rotation_type_correct m (h2 m hm) hf
    exact ⟨t, ht⟩
  have total : ∀ L : List M4, (∀ m ∈ L, ∃ t, m.rotationType = some t) →
      L.length = ((allTypes.map fun t => (L.filter fun m => decide (m.rotationType = some t)).length)).sum := by
    intro L
    induction L with
    | nil => intro _; decide
    | cons m L ih =>
      intro hL
      obtain ⟨t, ht⟩ := hL m (by simp)
      have := ih (fun m h => hL m (by simp [h]))
      rw [List.length_cons, this]
      simp only [allTypes, List.map_cons, List.map_nil, List.sum_cons, List.sum_nil, List.filter_cons, ht]
      cases t <;> simp <;> omega
  have e := total g.corePositionSet hsome
  unfold GeneralPositions.numOfGeneralPos
  rw [e]
  simp only [GeneralPositions.kindCount] at hcount
  simp only [allTypes, List.map_cons, List.map_nil, List.sum_cons, List.sum_nil, hcount, ClassCounts.get, ClassCounts.order]
  omega

/-- A symbol that is in neither table: a tetragonal group with the unique axis along a. -/
example : Consistent (hall "P 4x") ∧ HasPositions (hall "P 4x") (positionsOf "P 4x") ∧
    (positionsOf "P 4x").kindCount .N4 = 2 ∧ (positionsOf "P 4x").numOfGeneralPos = 4 :=
  ⟨consistent_by_check (by decide +kernel), positionsOf_spec (by decide +kernel), by decide +kernel, by decide +kernel⟩

/-- The crystal class decides the crystal system. -/
theorem class_system {k : Nat} {cc : ClassCounts} (h1 : 1 ≤ k) (h2 : k ≤ 230) (h : crystalClass k = some cc)
    (s : CrystalSystem) : InSystem cc.get s ↔ s = systemOfNumber k := by
  have key : ∀ k < 231, k = 0 ∨ ∃ cc, crystalClass k = some cc ∧
      ∀ s ∈ [CrystalSystem.Triclinic, .Monoclinic, .Orthorhombic, .Tetragonal, .Trigonal, .Hexagonal, .Cubic],
        (match s with
          | .Hexagonal => decide (0 < cc.n6 + cc.m6)
          | .Cubic => decide (2 < cc.n3)
          | .Trigonal => decide (cc.n3 = 2 ∧ cc.n6 + cc.m6 = 0)
          | .Tetragonal => decide (cc.n3 = 0 ∧ 0 < cc.n4 + cc.m4)
          | .Orthorhombic => decide (cc.n3 = 0 ∧ cc.n4 + cc.m4 = 0 ∧ 2 < cc.n2 + cc.m)
          | .Monoclinic => decide (cc.n3 = 0 ∧ cc.n4 + cc.m4 = 0 ∧ (cc.n2 + cc.m = 1 ∨ cc.n2 + cc.m = 2))
          | .Triclinic => decide (cc.n3 = 0 ∧ cc.n4 + cc.m4 = 0 ∧ cc.n2 + cc.m = 0)) = decide (s = systemOfNumber k) := by
    have : (List.range 231).all (fun k => Nat.beq k 0 || (match crystalClass k with
      | none => false
      | some cc => [CrystalSystem.Triclinic, .Monoclinic, .Orthorhombic, .Tetragonal, .Trigonal, .Hexagonal, .Cubic].all
        fun s => (match s with
          | .Hexagonal => decide (0 < cc.n6 + cc.m6)
          | .Cubic => decide (2 < cc.n3)
          | .Trigonal => decide (cc.n3 = 2 ∧ cc.n6 + cc.m6 = 0)
          | .Tetragonal => decide (cc.n3 = 0 ∧ 0 < cc.n4 + cc.m4)
          | .Orthorhombic => decide (cc.n3 = 0 ∧ cc.n4 + cc.m4 = 0 ∧ 2 < cc.n2 + cc.m)
          | .Monoclinic => decide (cc.n3 = 0 ∧ cc.n4 + cc.m4 = 0 ∧ (cc.n2 + cc.m = 1 ∨ cc.n2 + cc.m = 2))
          | .Triclinic => decide (cc.n3 = 0 ∧ cc.n4 + cc.m4 = 0 ∧ cc.n2 + cc.m = 0)) == decide (s = systemOfNumber k))) = true := by
      decide +kernel
    intro k hk
    have := List.all_eq_true.1 this k (List.mem_range.2 hk)
    rw [Bool.or_eq_true, Nat.beq_eq] at this
    rcases this with e | e
    · exact .inl e
    · cases hc : crystalClass k with
      | none => rw [hc] at e; cases e
      | some cc =>
        rw [hc] at e
        exact .inr ⟨cc, rfl, fun s hs => beq_iff_eq.1 (List.all_eq_true.1 e s hs)⟩
  rcases key k (by omega) with e | ⟨cc', hc, hs⟩
  · omega
  · rw [h] at hc
    obtain rfl := Option.some.inj hc
    have := hs s (by cases s <;> decide)
    rw [← decide_eq_true_iff (p := s = systemOfNumber k), ← this]
    cases s <;> simp only [decide_eq_true_iff] <;> exact Iff.rfl

/-- C95. Every consistent notation belongs to exactly one crystal system, read off its listed operations. -/
theorem one_crystal_system {n : HallSymbolNotation} {g : GeneralPositions} (hn : Consistent n) (hg : HasPositions n g) :
    ∃! s, InSystem g.kindCount s := by
  obtain ⟨k, cc, h1, h2, h3, h4, -⟩ := positions_crystal_class hn hg
  have e : g.kindCount = cc.get := funext h4
  refine ⟨systemOfNumber k, ?_, fun s hs => ?_⟩
  · change InSystem g.kindCount _
    rw [e]; exact (class_system h1 h2 h3 _).2 rfl
  · change InSystem g.kindCount s at hs
    rw [e] at hs; exact (class_system h1 h2 h3 s).1 hs

/-- The same symbol is tetragonal by this criterion. -/
example : Consistent (hall "P 4x") ∧ HasPositions (hall "P 4x") (positionsOf "P 4x") ∧
    InSystem (positionsOf "P 4x").kindCount .Tetragonal :=
  ⟨consistent_by_check (by decide +kernel), positionsOf_spec (by decide +kernel), by
    unfold InSystem; decide +kernel⟩

/-- C95. For every tabulated row the crystal system read off the listed operations is that of the row's number; so the
order of `CrystalSystem` is the order of the tables: a row with a greater number never has a lesser system. -/
theorem tabulated_crystal_system (code h : String) (hh : InTables code h) :
    ∃ n g, HallSymbolNotation.tryFromStr h.toList = some n ∧ HasPositions n g ∧
      (∀ s, InSystem g.kindCount s ↔ s = systemOfNumber (spaceGroupNumber code)) ∧
      ∀ code' h', InTables code' h' → spaceGroupNumber code ≤ spaceGroupNumber code' →
        ∀ n' g' s s', HallSymbolNotation.tryFromStr h'.toList = some n' → HasPositions n' g' →
          InSystem g.kindCount s → InSystem g'.kindCount s' → s.cmp s' ≠ .gt := by
  have one : ∀ code h, InTables code h → ∃ n g, HallSymbolNotation.tryFromStr h.toList = some n ∧ HasPositions n g ∧
      (∀ s, InSystem g.kindCount s ↔ s = systemOfNumber (spaceGroupNumber code)) := by
    intro code h hh
    obtain ⟨n, g, cc, -, h2, h3, h4, h5, h6, h7, h8⟩ := tabulated_usable code h hh
    refine ⟨n, g, h2, h3, fun s => ?_⟩
    have hfin := pointGroup_fits_cell h3
    have e : g.kindCount = cc.get := by
      funext t
      rw [kindCount_eq h4 h3, ← h8 t]
      congr 1
      ext r
      simp only [Set.mem_ofPred_eq]
      constructor
      · rintro ⟨a, b⟩; exact ⟨a, (isKind_iff (fits_finiteOrder (hfin r a)) t).2 (typeB_iff.1 b)⟩
      · rintro ⟨a, b⟩; exact ⟨a, typeB_iff.2 ((isKind_iff (fits_finiteOrder (hfin r a)) t).1 b)⟩
    rw [e]
    have k1 : 1 ≤ spaceGroupNumber code ∧ spaceGroupNumber code ≤ 230 := by
      unfold crystalClass at h5
      split at h5
      · cases h5
      · rename_i h0
        refine ⟨by omega, ?_⟩
        by_contra hgt
        have hall : ∀ c ∈ crystalClasses, c.1 ≤ 230 := by decide
        cases hf : crystalClasses.find? fun c => spaceGroupNumber code ≤ c.1 with
        | none => rw [hf] at h5; cases h5
        | some c =>
          have a := hall c (List.mem_of_find?_eq_some hf)
          have b := List.find?_some hf
          rw [decide_eq_true_iff] at b
          omega
    exact class_system k1.1 k1.2 h5 s
  obtain ⟨n, g, h1, h2, h3⟩ := one code h hh
  refine ⟨n, g, h1, h2, h3, ?_⟩
  intro code' h' hh' hle n' g' s s' hn' hg' hs hs'
  obtain ⟨n2, g2, e1, e2, e3⟩ := one code' h' hh'
  rw [hn'] at e1
  obtain rfl := Option.some.inj e1
  obtain rfl := positions_unique hg' e2
  rw [h3] at hs
  rw [e3] at hs'
  subst hs hs'
  have mono : ∀ a b : Nat, a ≤ b → (systemOfNumber a).cmp (systemOfNumber b) ≠ .gt := by
    intro a b hab
    unfold systemOfNumber
    split_ifs <;> first | decide | omega
  exact mono _ _ hle

/-- A hexagonal row, and a cubic one after it. -/
example : InTables "169" "P 61" ∧ InTables "227:2" "-F 4vw 2vw 3" ∧ spaceGroupNumber "169" ≤ spaceGroupNumber "227:2" ∧
    systemOfNumber (spaceGroupNumber "169") = .Hexagonal ∧ systemOfNumber (spaceGroupNumber "227:2") = .Cubic :=
  ⟨.inl ⟨462, by decide +kernel⟩, .inl ⟨525, by decide +kernel⟩, by decide +kernel, by decide +kernel, by decide +kernel⟩

end Verif
