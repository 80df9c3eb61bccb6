import Verif.Props.Subgroups
import Verif.Props.Classes

/-! # Redundant symbols (C101) -/

namespace Verif

/-- The operation of a matrix, seen after moving the origin by the shift. -/
def M4.shiftedBy (m : M4) (shift : V3) : Pt → Pt :=
  fun p => (m.act (p.subTwelfths shift)).addTwelfths shift

/-- C101. Symbols whose operation already belongs to the group of the others can be added or left out: if `n'` has the
lattice symbol, origin shift and all matrix symbols of `n`, and the operation of each of its matrix symbols belongs to the
group of `n`, then both denote the same group, one is consistent exactly when the other is, and if the first symbols agree
(and the request for memory is not too large) one has positions exactly when the other has. -/
theorem redundant_symbols {n n' : HallSymbolNotation} (hl : n'.latticeSymbol = n.latticeSymbol)
    (hv : n'.originShift = n.originShift) (hsub : ∀ s ∈ n.matrixSymbols, s ∈ n'.matrixSymbols)
    (hred : ∀ s ∈ n'.matrixSymbols, ∃ m, s.seitzMatrix = some m ∧ SpaceGroup n (m.shiftedBy n.originShift.vec)) :
    SameGroup n n' ∧ (Consistent n ↔ Consistent n') ∧
    (n'.matrixSymbols.head? = n.matrixSymbols.head? → bytesRequested n ≤ HallSymbolNotation.maxBytes → bytesRequested n' ≤ HallSymbolNotation.maxBytes →
      ((∃ g, HasPositions n g) ↔ ∃ g', HasPositions n' g')) := by
  have hless : NamesLess n n' := ⟨fun v h => by rw [hl]; exact h, fun h => by rw [hl]; exact h, hsub, by rw [hv]⟩
  have hsame : SameGroup n n' := by
    refine fun f => ⟨more_symbols_larger_group hless, fun hf => ?_⟩
    induction hf with
    | one => exact .one
    | cell k => exact .cell k
    | centring h => exact .centring (hl ▸ h)
    | inversion h => exact .inversion (hl ▸ h)
    | generator hs hg =>
      obtain ⟨m, hm, h⟩ := hred _ hs
      rw [hg] at hm
      obtain rfl := Option.some.inj hm
      rw [hv]
      exact h
    | comp _ _ h1 h2 => exact h1.comp h2
    | inv _ h1 h2 ih => exact ih.inv h1 h2
  refine ⟨hsame, ?_, ?_⟩
  · unfold Consistent
    rw [hl]
    exact ⟨fun h f hf => h f ((hsame f).2 hf), fun h f hf => h f ((hsame f).1 hf)⟩
  · intro hh hb hb'
    have hfit : ∀ r, FitsFirstSymbol n' r ↔ FitsFirstSymbol n r := by
      intro r
      unfold FitsFirstSymbol
      revert hh
      cases n'.matrixSymbols <;> cases n.matrixSymbols <;> simp
      rintro rfl
      exact Iff.rfl
    rw [positions_exist_iff, positions_exist_iff]
    constructor
    · rintro ⟨h1, h2, -⟩
      refine ⟨?_, fun s hs => ?_, hb'⟩
      · intro e
        obtain ⟨a, L, e2⟩ := List.exists_cons_of_ne_nil h1
        have := hsub a (by rw [e2]; simp)
        rw [e] at this
        cases this
      · obtain ⟨m, hm, h⟩ := hred s hs
        refine ⟨m, hm, (hfit _).2 ?_⟩
        obtain ⟨g, hg⟩ := (positions_exist_iff n).2 ⟨h1, h2, hb⟩
        refine pointGroup_fits_cell hg m.rot ⟨_, h, ?_⟩
        have hu := seitzMatrix_unimod hm
        refine ⟨⟨m.rot, (m.tr.add n.originShift.vec).add (m.rot.mulVec n.originShift.vec).neg, V3.zero, 1⟩, rfl, ?_⟩
        funext p
        ext <;> simp only [M4.shiftedBy, M4.act, Pt.subTwelfths, Pt.addTwelfths, V3.add, V3.neg, M3.mulVec, Int.cast_add,
          Int.cast_neg, Int.cast_mul] <;> ring
    · rintro ⟨h1, h2, -⟩
      refine ⟨?_, fun s hs => ?_, hb⟩
      · intro e
        rw [e] at hh
        obtain ⟨a, L, e2⟩ := List.exists_cons_of_ne_nil h1
        rw [e2] at hh
        cases hh
      · obtain ⟨m, hm, h⟩ := h2 s (hsub s hs)
        exact ⟨m, hm, (hfit _).1 h⟩

/-- C101, for the results: the lists of operations have the same members; for a primitive lattice the results are equal. -/
theorem redundant_symbols_positions {n n' : HallSymbolNotation} {g g' : GeneralPositions} (hl : n'.latticeSymbol = n.latticeSymbol)
    (hv : n'.originShift = n.originShift) (hsub : ∀ s ∈ n.matrixSymbols, s ∈ n'.matrixSymbols)
    (hred : ∀ s ∈ n'.matrixSymbols, ∃ m, s.seitzMatrix = some m ∧ SpaceGroup n (m.shiftedBy n.originShift.vec))
    (hn : Consistent n) (hg : HasPositions n g) (hg' : HasPositions n' g') :
    g.latticeTranslations = g'.latticeTranslations ∧ g.deriveFullSets.flatten.Perm g'.deriveFullSets.flatten ∧
    (n'.matrixSymbols.head? = n.matrixSymbols.head? → n.latticeSymbol.char = .P → g = g') := by
  obtain ⟨h1, h2, -⟩ := redundant_symbols hl hv hsub hred
  have h := (same_group_iff_same_positions hn (h2.1 hn) hg hg').1 h1
  refine ⟨h.1, h.2, fun hh hP => same_group_same_positions_partial hn (h2.1 hn) hg hg' h1 ?_ hP⟩
  unfold referenceOrder
  revert hh
  cases n'.matrixSymbols <;> cases n.matrixSymbols <;> simp
  rintro rfl
  rfl

/-- The hypotheses hold for `P 2 2` with a twofold axis along b named in addition. -/
example : ∃ s : MatrixSymbol, ∃ m : M4, s ∉ (hall "P 2 2").matrixSymbols ∧ s.seitzMatrix = some m ∧
    SpaceGroup (hall "P 2 2") (m.shiftedBy (hall "P 2 2").originShift.vec) ∧
    Consistent (hall "P 2 2") ∧ HasPositions (hall "P 2 2") (positionsOf "P 2 2") := by
  refine ⟨⟨false, .N2, .None, .None, .Y, none⟩, ⟨⟨-1, 0, 0, 0, 1, 0, 0, 0, -1⟩, ⟨0, 0, 0⟩, ⟨0, 0, 0⟩, 1⟩, by decide +kernel,
    by decide +kernel, ?_, consistent_by_check (by decide +kernel), positionsOf_spec (by decide +kernel)⟩
  have hs : (hall "P 2 2").originShift.vec = ⟨0, 0, 0⟩ := by decide +kernel
  have h1 := SpaceGroup.generator (n := hall "P 2 2") (s := ⟨false, .N2, .None, .None, .Z, none⟩)
    (g := ⟨⟨-1, 0, 0, 0, -1, 0, 0, 0, 1⟩, ⟨0, 0, 0⟩, ⟨0, 0, 0⟩, 1⟩) (by decide +kernel) (by decide +kernel)
  have h2 := SpaceGroup.generator (n := hall "P 2 2") (s := ⟨false, .N2, .None, .None, .X, none⟩)
    (g := ⟨⟨1, 0, 0, 0, -1, 0, 0, 0, -1⟩, ⟨0, 0, 0⟩, ⟨0, 0, 0⟩, 1⟩) (by decide +kernel) (by decide +kernel)
  have h3 := h1.comp h2
  rw [hs] at h3 ⊢
  convert h3 using 1
  funext p
  simp [M4.shiftedBy, M4.act, Pt.subTwelfths, Pt.addTwelfths]

end Verif
