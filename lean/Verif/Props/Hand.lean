import Verif.Rows.Mirror
import Verif.Props.Complete
import Verif.Props.Relabel

/-! # Groups of opposite hand (C99) -/

namespace Verif

theorem mirrorNumber_range : ∀ k, 1 ≤ k → k ≤ 230 → 1 ≤ mirrorNumber k ∧ mirrorNumber k ≤ 230 := by
  have h : (List.range 231).all (fun k => (Nat.beq k 0) || (Nat.ble 1 (mirrorNumber k) && Nat.ble (mirrorNumber k) 230)) = true := by
    decide +kernel
  intro k h1 h2
  have := List.all_eq_true.1 h k (List.mem_range.2 (by omega))
  simp only [Bool.or_eq_true, Nat.beq_eq, Bool.and_eq_true, Nat.ble_eq] at this
  omega

/-- The group listed under the number of the mirror image is the mirror image. -/
theorem table_mirror {k : Nat} (h1 : 1 ≤ k) (h2 : k ≤ 230) {s s' : String} {n n' : HallSymbolNotation}
    (hs : defaultTable.getHall (k - 1) = some s) (hs' : defaultTable.getHall (mirrorNumber k - 1) = some s')
    (hn : HallSymbolNotation.tryFromStr s.toList = some n) (hn' : HallSymbolNotation.tryFromStr s'.toList = some n') :
    MirrorType n n' := by
  obtain ⟨i, rfl⟩ : ∃ i, k = i + 1 := ⟨k - 1, by omega⟩
  rw [Nat.add_sub_cancel] at hs
  have := List.all_eq_true.1 mirrorCovered_all i (List.mem_range.2 (by omega))
  simp only [mirrorCovered, Bool.or_eq_true, List.any_eq_true, Nat.beq_eq, Bool.and_eq_true] at this
  rcases this with ⟨r, hr, rfl⟩ | ⟨him, hk⟩
  · exact MirrorRow.sound (List.all_eq_true.1 mirrorRows_ok r hr) hs hs' hn hn'
  · rw [hk, Nat.add_sub_cancel, hs] at hs'
    obtain rfl := Option.some.inj hs'
    rw [hn] at hn'
    obtain rfl := Option.some.inj hn'
    have e : Data.defaultHallName[i]? = some s := hs
    rw [List.getD_eq_getElem?_getD, e, Option.getD_some] at him
    exact improper_mirror him hn

/-- C99. For a notation with general positions and any other notation: an orientation-reversing change of basis and origin turns one
group into the other exactly when the space-group number of the second is that of the mirror image of the first: the partner
in one of the eleven enantiomorphic pairs, or the number itself. -/
theorem mirror_iff_number {n n' : HallSymbolNotation} {g : GeneralPositions} (hg : HasPositions n g) :
    MirrorType n n' ↔ ∃ k, (1 ≤ k ∧ k ≤ 230) ∧ HasTypeNumber n k ∧ HasTypeNumber n' (mirrorNumber k) := by
  obtain ⟨k, ⟨hk, hnum⟩, -⟩ := one_of_230_types hg
  obtain ⟨code, s, m, e1, e2, e3, e4, e5⟩ := id hnum
  have hk' := mirrorNumber_range k hk.1 hk.2
  have row : ∃ code' s' m', defaultTable.getNumber (mirrorNumber k - 1) = some code' ∧ spaceGroupNumber code' = mirrorNumber k ∧
      defaultTable.getHall (mirrorNumber k - 1) = some s' ∧ HallSymbolNotation.tryFromStr s'.toList = some m' := by
    obtain ⟨code', k1, k2⟩ := (every_number (mirrorNumber k) hk'.1 hk'.2).2
    have hl : Data.defaultHallName.length = 230 := by decide +kernel
    have hlt : mirrorNumber k - 1 < Data.defaultHallName.length := by omega
    have hh : defaultTable.getHall (mirrorNumber k - 1) = some (Data.defaultHallName[mirrorNumber k - 1]) :=
      List.getElem?_eq_getElem hlt
    obtain ⟨m', -, -, -, h2, -⟩ := tabulated_usable _ _ (.inr ⟨_, k1, hh⟩)
    exact ⟨code', _, m', k1, k2, hh, h2⟩
  obtain ⟨code', s', m', c1, c2, c3, c4⟩ := row
  have hm := table_mirror hk.1 hk.2 e3 c3 e4 c4
  constructor
  · intro h
    exact ⟨k, hk, hnum, code', s', m', c1, c2, c3, c4, h.symm.twice (e5.mirror hm)⟩
  · rintro ⟨j, hj, hnj, code2, s2, m2, d1, d2, d3, d4, d5⟩
    obtain rfl : j = k := (one_of_230_types hg).unique ⟨hj, hnj⟩ ⟨hk, hnum⟩
    rw [c3] at d3
    obtain rfl := Option.some.inj d3
    rw [c4] at d4
    obtain rfl := Option.some.inj d4
    exact (e5.mirror hm).same d5.symm

/-- The listing of `P 41`, whose group is of number 76, and of its mirror image `P 43`, of number 78. -/
example : HasPositions (hall "P 41") (positionsOf "P 41") ∧ HasTypeNumber (hall "P 41") 76 ∧
    MirrorType (hall "P 41") (hall "P 43") ∧ ¬ MirrorType (hall "P 41") (hall "P 41") := by
  have h2 : HasPositions (hall "P 41") (positionsOf "P 41") := positionsOf_spec (by decide +kernel)
  have h3 : HasTypeNumber (hall "P 41") 76 :=
    ⟨"76", "P 41", _, by decide +kernel, by decide +kernel, by decide +kernel, by decide +kernel, .refl _⟩
  have h4 : HasTypeNumber (hall "P 43") 78 :=
    ⟨"78", "P 43", _, by decide +kernel, by decide +kernel, by decide +kernel, by decide +kernel, .refl _⟩
  refine ⟨h2, h3, (mirror_iff_number h2).2 ⟨76, by decide, h3, h4⟩, fun h => ?_⟩
  obtain ⟨k, hk, a, b⟩ := (mirror_iff_number h2).1 h
  obtain rfl := (one_of_230_types h2).unique ⟨hk, a⟩ ⟨by decide, h3⟩
  have := (one_of_230_types h2).unique ⟨by decide, b⟩ ⟨by decide, h3⟩
  revert this
  decide

/-- C99. A group is no mirror image of itself exactly for the 22 numbers of the enantiomorphic pairs. -/
theorem handed_iff {n : HallSymbolNotation} {g : GeneralPositions} {k : Nat} (hg : HasPositions n g)
    (hk : 1 ≤ k ∧ k ≤ 230) (hnum : HasTypeNumber n k) :
    ¬ MirrorType n n ↔ ∃ p ∈ enantiomorphs, k = p.1 ∨ k = p.2 := by
  have h : (List.range 231).all (fun k => (enantiomorphs.any fun p => Nat.beq k p.1 || Nat.beq k p.2) ==
      (! Nat.beq (mirrorNumber k) k)) = true := by decide +kernel
  have := List.all_eq_true.1 h k (List.mem_range.2 (by omega))
  have key : (∃ p ∈ enantiomorphs, k = p.1 ∨ k = p.2) ↔ mirrorNumber k ≠ k := by
    rw [beq_iff_eq] at this
    constructor
    · rintro ⟨p, hp, h⟩
      have h1 : (enantiomorphs.any fun p => Nat.beq k p.1 || Nat.beq k p.2) = true :=
        List.any_eq_true.2 ⟨p, hp, by simpa only [Bool.or_eq_true, Nat.beq_eq] using h⟩
      rw [h1] at this
      intro e
      rw [e] at this
      simp at this
    · intro hne
      have h2 : Nat.beq (mirrorNumber k) k = false := by
        cases e : Nat.beq (mirrorNumber k) k with
        | true => exact absurd (Nat.beq_eq.mp e) hne
        | false => rfl
      rw [h2] at this
      obtain ⟨p, hp, h⟩ := List.any_eq_true.1 this
      exact ⟨p, hp, by simpa only [Bool.or_eq_true, Nat.beq_eq] using h⟩
  rw [key, mirror_iff_number hg]
  refine not_congr ⟨?_, fun e => ⟨k, hk, hnum, by rw [e]; exact hnum⟩⟩
  rintro ⟨j, hj, a, b⟩
  obtain rfl := (one_of_230_types hg).unique ⟨hj, a⟩ ⟨hk, hnum⟩
  exact (one_of_230_types hg).unique ⟨mirrorNumber_range j hj.1 hj.2, b⟩ ⟨hk, hnum⟩

/-- C99. The positions listed for such a group are proper rotations only. -/
theorem handed_proper {n : HallSymbolNotation} {g : GeneralPositions} {k : Nat} (hg : HasPositions n g)
    (hk : 1 ≤ k ∧ k ≤ 230) (hnum : HasTypeNumber n k) (hp : ∃ p ∈ enantiomorphs, k = p.1 ∨ k = p.2) :
    ∀ m ∈ g.corePositionSet, m.rot.det = 1 := by
  intro m hm
  obtain ⟨f, hf, m', hr, e⟩ := (core_rotations hg).1 m.rot |>.2 ⟨m, hm, rfl⟩
  have hu : m'.rot.Unimod := by
    obtain ⟨m2, e2, -, hu⟩ := hf.isOp
    rw [(M4.act_inj (e.symm.trans e2)).1]; exact hu
  rw [← hr]
  rcases hu with h | h
  · exact h
  · exact absurd (mirror_of_improper (m := m') (e ▸ hf) (by rw [h]; decide)) ((handed_iff hg hk hnum).2 hp)

/-- C99 and C88. The notation with complementary screws and opposite origin shift (translation letters a, b, c, n only) has
the number of the mirror image. -/
theorem mirror_notation_number {n : HallSymbolNotation} {g : GeneralPositions} {k : Nat} (hg : HasPositions n g)
    (hh : n.HalvesOnly) (hk : 1 ≤ k ∧ k ≤ 230) (hnum : HasTypeNumber n k) : HasTypeNumber n.mirror (mirrorNumber k) := by
  have hm : MirrorType n n.mirror := by
    refine ⟨M3.one.opp, 1, ⟨0, 0, 0⟩, by decide, by decide, fun f f' hf => ?_⟩
    have e : changeOfBasis M3.one.opp 1 ⟨0, 0, 0⟩ = Pt.opposite := by
      funext p; simp [changeOfBasis, M3.one, M3.opp, Pt.opposite]
    rw [e] at hf
    rw [mirror_group hh]
    have : (fun p => (f' p.opposite).opposite) = f := by
      funext p
      have h1 : (f p).opposite = f' p.opposite := congrFun hf p
      rw [← h1]
      ext <;> simp [Pt.opposite]
    rw [this]
  obtain ⟨j, hj, a, b⟩ := (mirror_iff_number hg).1 hm
  obtain rfl := (one_of_230_types hg).unique ⟨hj, a⟩ ⟨hk, hnum⟩
  exact b

/-- The hypotheses hold for `P 41`, whose mirror image is `P 43`. -/
example : (hall "P 41").HalvesOnly ∧ (hall "P 41").mirror = hall "P 43" ∧ mirrorNumber 76 = 78 := by
  refine ⟨?_, by decide +kernel, by decide⟩
  have e : (hall "P 41").matrixSymbols.all (fun s => decide (s.translationSymbols = none)) = true := by decide +kernel
  intro s hs l hl
  have := List.all_eq_true.1 e s hs
  rw [decide_eq_true_eq] at this
  rw [this] at hl; cases hl

end Verif
