import Verif.Props.Complete
import Verif.Props.Site

/-! # What the number of a group says about its operations (C102) -/

namespace Verif

/-- The row of the default table with a given number, with its crystal class. -/
theorem number_row {n : HallSymbolNotation} {k : Nat} (hk : HasTypeNumber n k) :
    ∃ n' g' cc, HasPositions n' g' ∧ SameType n n' ∧ crystalClass k = some cc ∧
      ∀ t, {r ∈ PointGroup n' | r.IsKind t}.ncard = cc.get t := by
  obtain ⟨code, h, n', e1, rfl, e3, e4, e5⟩ := hk
  obtain ⟨m, g', cc, -, h2, h3, -, h5, -, -, h8⟩ := tabulated_usable code h (.inr ⟨_, e1, e3⟩)
  rw [e4] at h2
  obtain rfl := Option.some.inj h2
  exact ⟨n', g', cc, h3, e5, h5, h8⟩

/-- C102. The number of a group settles its point group: for every notation with general positions, consistent or not, its
rotation parts are, kind by kind, as many as the crystal class of the number has. -/
theorem number_settles_rotations {n : HallSymbolNotation} {g : GeneralPositions} (hg : HasPositions n g) {k : Nat}
    (hk : HasTypeNumber n k) :
    ∃ cc, crystalClass k = some cc ∧ ∀ t, {r ∈ PointGroup n | r.IsKind t}.ncard = cc.get t := by
  obtain ⟨n', g', cc, hg', hs, hcc, h⟩ := number_row hk
  refine ⟨cc, hcc, fun t => ?_⟩
  rw [← h t]
  exact hs.kinds (pointGroup_rotations hg).1.finite (pointGroup_rotations hg').1.finite t

/-- The glide planes of this notation make translations its letter has not, but its rotations are those of number 43. -/
example : {r ∈ PointGroup (hall "P 2 -2d") | r.IsKind .M}.ncard = 2 ∧
    {r ∈ PointGroup (hall "P 2 -2d") | r.IsKind .N2}.ncard = 1 := by
  obtain ⟨hg, -, hk⟩ := sample_43
  generalize hall "P 2 -2d" = n at *
  obtain ⟨cc, hcc, h⟩ := number_settles_rotations hg hk
  have e : crystalClass 43 = some { n2 := 1, m := 2 } := by decide +kernel
  rw [e] at hcc
  obtain rfl := Option.some.inj hcc
  exact ⟨h .M, h .N2⟩

theorem get_order {a b : ClassCounts} (h : ∀ t, a.get t = b.get t) : a.order = b.order := by
  have h1 := h .E
  have h2 := h .N2
  have h3 := h .N3
  have h4 := h .N4
  have h5 := h .N6
  have h6 := h .I
  have h7 := h .M
  have h8 := h .M3
  have h9 := h .M4
  have h10 := h .M6
  simp only [ClassCounts.get] at h1 h2 h3 h4 h5 h6 h7 h8 h9 h10
  simp only [ClassCounts.order, *]

/-- C102. For a consistent notation the listed operations are counted by the number: of each type as many core positions as
the crystal class of the number has, altogether its order; and their crystal system is that of the number. -/
theorem number_settles_positions {n : HallSymbolNotation} {g : GeneralPositions} (hg : HasPositions n g) (hn : Consistent n)
    {k : Nat} (h1 : 1 ≤ k) (h2 : k ≤ 230) (hk : HasTypeNumber n k) :
    ∃ cc, crystalClass k = some cc ∧ (∀ t, g.kindCount t = cc.get t) ∧ g.numOfGeneralPos = cc.order ∧
      ∀ s, InSystem g.kindCount s ↔ s = systemOfNumber k := by
  obtain ⟨cc, hcc, h⟩ := number_settles_rotations hg hk
  have hcount : ∀ t, g.kindCount t = cc.get t := by
    intro t
    rw [kindCount_eq hn hg t, ← h t]
    congr 1
    ext r
    simp only [Set.mem_ofPred_eq]
    refine and_congr_right fun hr => ?_
    rw [typeB_iff, isKind_iff (fits_finiteOrder (pointGroup_fits_cell hg r hr))]
  refine ⟨cc, hcc, hcount, ?_, fun s => ?_⟩
  · obtain ⟨-, cc', -, -, -, h', ho⟩ := positions_crystal_class hn hg
    rw [ho]
    exact get_order fun t => (h' t).symm.trans (hcount t)
  · rw [show g.kindCount = cc.get from funext hcount]
    exact class_system h1 h2 hcc s

/-- A symbol of neither table: number 76, so of class 4: four positions, two of them of order 4, tetragonal. -/
example : HasPositions (hall "P 4xu") (positionsOf "P 4xu") ∧ Consistent (hall "P 4xu") ∧ HasTypeNumber (hall "P 4xu") 76 ∧
    (positionsOf "P 4xu").kindCount .N4 = 2 ∧ (positionsOf "P 4xu").numOfGeneralPos = 4 ∧
    InSystem (positionsOf "P 4xu").kindCount .Tetragonal := by
  have hn : Consistent (hall "P 4xu") := consistent_by_check (by decide +kernel)
  obtain ⟨hg, hk, -⟩ := sample_76
  generalize hall "P 4xu" = n at *
  generalize positionsOf "P 4xu" = g at *
  obtain ⟨cc, hcc, h1, h2, h3⟩ := number_settles_positions hg hn (by decide) (by decide) hk
  have e : crystalClass 76 = some { n2 := 1, n4 := 2 } := by decide +kernel
  rw [e] at hcc
  obtain rfl := Option.some.inj hcc
  exact ⟨hg, hn, hk, h1 .N4, h2, (h3 _).2 rfl⟩

end Verif
