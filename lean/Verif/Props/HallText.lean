import Verif.Proofs.HallText
import Verif.Proofs.Unambiguous
import Verif.Proofs.RowFacts

/-! # The text of a Hall symbol and the group it denotes (C74) -/

namespace Verif

set_option maxRecDepth 100000

/-! ## C74 -/

/-- C74. For every Hall symbol written by the rules of the notation: the text is accepted, and the group of the resulting
notation is the group the rules prescribe. (Missing: the axis marks outside `AxesAsRead`, which the library replaces by
its defaults, and origin shifts of symbols with a leading minus sign that do not leave the inversion in the group; see
`axes_exact`, `wrong_axis_wrong_group` and C30.) -/
theorem text_denotes_group_partial {minus : Bool} {l : Lattices} {ws : List (List Char × Written)} {tail : List Char} {v : V3}
    (hw : ProperlySpaced ws) (ht : ShiftWritten tail v) (hh : HallSymbols (ws.map (·.2))) (ha : AxesAsRead (ws.map (·.2)))
    (hs : minus = false ∨ DoubleIsLattice l v) :
    ∃ n, HallSymbolNotation.tryFromStr (latticeText minus l ++ symbolsText ws ++ tail) = some n ∧
      ∀ f, SpaceGroup n f ↔ HallGroup minus l (ws.map (·.2)) v f := by
  obtain ⟨o, ho, hc⟩ := ht.tail
  have hv := properlySpaced_valid hw
  refine ⟨⟨⟨minus, l⟩, restore (ws.map fun bw => bw.2.raw), o⟩, ?_, ?_⟩
  · unfold HallSymbolNotation.tryFromStr
    rw [written_parsed hw ho]
    rfl
  · have e : ws.map (fun bw => bw.2.raw) = (ws.map (·.2)).map Written.raw := by rw [List.map_map]; rfl
    intro f
    refine group_of_matches rfl (matches_all ?_ ?_) hv hh hc hs f
    · rw [e]; exact all_fields _
    · rw [e]; exact (axesAgree_iff hv hh).2 ha

/-- C74, on the results: when positions are produced and the group prescribed by the rules has no translations besides those
of the lattice, the operations listed are exactly the operations of that group. -/
theorem text_positions_partial {minus : Bool} {l : Lattices} {ws : List (List Char × Written)} {tail : List Char} {v : V3}
    (hw : ProperlySpaced ws) (ht : ShiftWritten tail v) (hh : HallSymbols (ws.map (·.2))) (ha : AxesAsRead (ws.map (·.2)))
    (hs : minus = false ∨ DoubleIsLattice l v)
    (hc : ∀ f, HallGroup minus l (ws.map (·.2)) v f → IsTranslation f → IsCentringTranslation l f)
    {n : HallSymbolNotation} {g : GeneralPositions}
    (hn : HallSymbolNotation.tryFromStr (latticeText minus l ++ symbolsText ws ++ tail) = some n) (hg : HasPositions n g)
    (f : Pt → Pt) : Listed g f ↔ HallGroup minus l (ws.map (·.2)) v f := by
  obtain ⟨n', hn', hgrp⟩ := text_denotes_group_partial hw ht hh ha hs
  rw [hn] at hn'
  obtain rfl := Option.some.inj hn'
  have hl : n.latticeSymbol = ⟨minus, l⟩ := by
    obtain ⟨o, ho, _⟩ := ht.tail
    unfold HallSymbolNotation.tryFromStr at hn
    rw [written_parsed hw ho] at hn
    cases hn
    rfl
  have hcons : Consistent n := by
    intro f hf htr
    rw [hl]
    exact (centring_translation minus l f).1 (hc f ((hgrp f).1 hf) htr)
  rw [← positions_complete hg hcons, hgrp]

/-- C74. The matrix of a rotation is determined by the order and the axis: the rotation named in the specification exists
and is unique for every symbol of the notation. -/
theorem rotation_unique {w : Written} {d : Option V3} (hv : w.Valid) (hr : RotationWritten w d) : ∃! R, HallRotation w.fold d R := by
  have key : ∃ R, HallRotation w.fold d R := by
    by_cases hf : w.fold = .N1
    · exact ⟨M3.one, by unfold HallRotation; rw [if_pos hf]⟩
    · unfold RotationWritten at hr
      cases d with
      | none => exact absurd hr hf
      | some u =>
        have hmat : ∀ di ax, axisDirection di ax = some u → (rotationMatrix w.fold di ax).isSome →
            ∃ R, HallRotation w.fold (some u) R := by
          intro di ax h1 h2
          obtain ⟨m, hm⟩ := Option.isSome_iff_exists.1 h2
          exact ⟨m.rot, h1 ▸ hallRotation_of_matrix hm hf⟩
        have h0 := hv.1
        simp only [] at hr
        rcases hr with hr | hr | ⟨hr, rfl⟩ | ⟨hr, hu⟩
        · exact absurd hr hf
        · simp only [List.mem_cons, List.not_mem_nil, or_false] at hr
          rcases hr with rfl | rfl | rfl
          · exact hmat .None .X rfl (by revert hf h0; cases w.fold <;> decide)
          · exact hmat .None .Y rfl (by revert hf h0; cases w.fold <;> decide)
          · exact hmat .None .Z rfl (by revert hf h0; cases w.fold <;> decide)
        · exact hmat .Asterisk .Z rfl (by rw [hr]; rfl)
        · simp only [List.mem_cons, List.not_mem_nil, or_false] at hu
          rcases hu with rfl | rfl | rfl | rfl | rfl | rfl
          · exact hmat .SingleQuote .X rfl (by rw [hr]; rfl)
          · exact hmat .SingleQuote .Y rfl (by rw [hr]; rfl)
          · exact hmat .SingleQuote .Z rfl (by rw [hr]; rfl)
          · exact hmat .DoubleQuote .X rfl (by rw [hr]; rfl)
          · exact hmat .DoubleQuote .Y rfl (by rw [hr]; rfl)
          · exact hmat .DoubleQuote .Z rfl (by rw [hr]; rfl)
  obtain ⟨R, hR⟩ := key
  refine ⟨R, hR, fun R' hR' => ?_⟩
  by_cases hf : w.fold = .N1
  · unfold HallRotation at hR hR'
    rw [if_pos hf] at hR hR'
    rw [hR, hR']
  · obtain ⟨u, hu, hu'⟩ := rotationWritten_axes hr hf
    exact hallRotation_unique hv.1 (fun u' h' => by rw [hu] at h'; cases h'; exact hu') hR' hR

/-- C74. `AxesAsRead` is exact: it holds if and only if every symbol (other than 1) is read with the axis the rules
prescribe. -/
theorem axes_exact {minus : Bool} {l : Lattices} {ws : List (List Char × Written)} {tail : List Char} {v : V3}
    (hw : ProperlySpaced ws) (ht : ShiftWritten tail v) (hh : HallSymbols (ws.map (·.2))) {n : HallSymbolNotation}
    (hn : HallSymbolNotation.tryFromStr (latticeText minus l ++ symbolsText ws ++ tail) = some n) :
    AxesAsRead (ws.map (·.2)) ↔ ∀ (i : Nat) (wd : Written × Option V3) (m : MatrixSymbol),
      (withDirections 0 none (ws.map (·.2)))[i]? = some wd → n.matrixSymbols[i]? = some m → wd.1.fold ≠ .N1 →
      axisDirection m.nfoldDiag m.rotationAxis = wd.2 := by
  obtain ⟨o, ho, _⟩ := ht.tail
  unfold HallSymbolNotation.tryFromStr at hn
  rw [written_parsed hw ho] at hn
  cases hn
  have e : ws.map (fun bw => bw.2.raw) = (ws.map (·.2)).map Written.raw := by rw [List.map_map]; rfl
  rw [← axesAgree_iff (properlySpaced_valid hw) hh, e]
  unfold AxesAgree
  have hlen : (withDirections 0 none (ws.map (·.2))).length = (restore ((ws.map (·.2)).map Written.raw)).length :=
    (all_fields _).length_eq
  rw [List.forall₂_iff_get]
  constructor
  · rintro ⟨_, h⟩ i wd m hi hm hf
    obtain ⟨h1, rfl⟩ := List.getElem?_eq_some_iff.1 hi
    obtain ⟨h2, rfl⟩ := List.getElem?_eq_some_iff.1 hm
    exact h i h1 h2 hf
  · intro h
    refine ⟨hlen, fun i h1 h2 hf => ?_⟩
    exact h i _ _ (List.getElem?_eq_getElem h1) (List.getElem?_eq_getElem h2) hf

/-- C74. A text is the written form of at most one symbol: the lattice, the blanks, the symbols and the shift are
determined by it. Hence the group above depends on the text only. -/
theorem reading_unique {minus minus' : Bool} {l l' : Lattices} {ws ws' : List (List Char × Written)} {tail tail' : List Char}
    {v v' : V3} (hw : ProperlySpaced ws) (hw' : ProperlySpaced ws') (ht : ShiftWritten tail v) (ht' : ShiftWritten tail' v')
    (h : latticeText minus l ++ symbolsText ws ++ tail = latticeText minus' l' ++ symbolsText ws' ++ tail') :
    minus = minus' ∧ l = l' ∧ ws = ws' ∧ v = v' := by
  rw [List.append_assoc, List.append_assoc] at h
  obtain ⟨h1, h2, hr⟩ := lattice_unique h
  obtain ⟨h3, rfl⟩ := symbols_unique hw hw' ht.endText ht'.endText hr
  exact ⟨h1, h2, h3, ht.unique ht'⟩

/-- Sample: ` 61 2 (0 0 -1)`. -/
def sampleHall : List (List Char × Written) :=
  [([' '], ⟨false, .N6, none, .N1, []⟩), ([' '], ⟨false, .N2, none, .None, []⟩)]

instance (w : Written) : Decidable w.Valid := inferInstanceAs (Decidable (_ ∧ _))

instance : (ws : List (List Char × Written)) → Decidable (ProperlySpaced ws)
  | [] => isTrue trivial
  | (b, w) :: rest => inferInstanceAs (Decidable ((∀ c ∈ b, Blank c) ∧ w.Valid ∧
      ∀ bw ∈ rest, (∀ c ∈ bw.1, Blank c) ∧ bw.1 ≠ [] ∧ bw.2.Valid))

instance (w : Written) : (d : Option V3) → Decidable (RotationWritten w d)
  | none => inferInstanceAs (Decidable (_ = _))
  | some _ => inferInstanceAs (Decidable (_ ∨ _))

instance (w : Written) (d : Option V3) : Decidable (ScrewWritten w d) := inferInstanceAs (Decidable (_ ∨ _))

instance (ws : List Written) : Decidable (HallSymbols ws) := inferInstanceAs (Decidable (∀ _ ∈ _, _))

instance : (ws : List Written) → Decidable (AxesAsRead ws)
  | [] => isTrue trivial
  | [a] => inferInstanceAs (Decidable (NoDiagonal a))
  | [a, b] => inferInstanceAs (Decidable (NoDiagonal a ∧ SecondAsRead a b))
  | a :: b :: c :: rest => inferInstanceAs (Decidable (NoDiagonal a ∧ SecondAsRead a b ∧ ThirdAsRead c ∧ ∀ w ∈ rest, NoDiagonal w))

/-- The shifts that occur in the tables. -/
def tabulatedTails : List (List Char × V3) :=
  [([], ⟨0, 0, 0⟩), (" (0 0 1)".toList, ⟨0, 0, 1⟩), (" (0 0 -1)".toList, ⟨0, 0, -1⟩)]

theorem tabulatedTails_written : ∀ tv ∈ tabulatedTails, ShiftWritten tv.1 tv.2 := by
  have hb : ∀ c ∈ [' '], Blank c := by decide
  have h1 : IntText ['1'] 1 := .plain (d := '1') (ds := []) (by unfold DecimalDigit; decide) (by decide) (by simp)
  have h2 : IntText ['-', '1'] (-1) := .minus (d := '1') (ds := []) (by unfold DecimalDigit; decide) (by decide) (by simp)
  have h0 : IntText ['0'] 0 := .zero
  intro tv htv
  simp only [tabulatedTails, List.mem_cons, List.not_mem_nil, or_false] at htv
  rcases htv with rfl | rfl | rfl
  · exact .none (by simp)
  · exact .shift ⟨[' '], "0 0 1".toList, hb, .more (t := ['0']) (b := [' ']) h0 (by unfold FitsI32; omega) (by decide) hb
      (.more (t := ['0']) (b := [' ']) h0 (by unfold FitsI32; omega) (by decide) hb (.one h1 (by unfold FitsI32; omega))),
      by decide⟩
  · exact .shift ⟨[' '], "0 0 -1".toList, hb, .more (t := ['0']) (b := [' ']) h0 (by unfold FitsI32; omega) (by decide) hb
      (.more (t := ['0']) (b := [' ']) h0 (by unfold FitsI32; omega) (by decide) hb (.one h2 (by unfold FitsI32; omega))),
      by decide⟩

example : ∃ n, HallSymbolNotation.tryFromStr "P 61 2 (0 0 -1)".toList = some n ∧
    ∀ f, SpaceGroup n f ↔ HallGroup false .P (sampleHall.map (·.2)) ⟨0, 0, -1⟩ f :=
  text_denotes_group_partial (minus := false) (l := .P) (ws := sampleHall) (tail := " (0 0 -1)".toList)
    (by decide) (tabulatedTails_written (" (0 0 -1)".toList, ⟨0, 0, -1⟩) (by decide)) (by decide) (by decide) (Or.inl rfl)

example : withDirections 0 none (sampleHall.map (·.2)) =
    [(⟨false, .N6, none, .N1, []⟩, some ⟨0, 0, 1⟩), (⟨false, .N2, none, .None, []⟩, some ⟨1, -1, 0⟩)] := by decide

theorem rotation_of_code {f : NFold} {d : NFoldDiag} {a : RotationAxis} {r : M4} {u : V3} (hr : rotationMatrix f d a = some r)
    (hf : f ≠ .N1) (hu : axisDirection d a = some u) : HallRotation f (some u) r.rot := hu ▸ hallRotation_of_matrix hr hf

theorem noShift (f : Pt → Pt) : (fun p : Pt => (f (p.subTwelfths ⟨0, 0, 0⟩)).addTwelfths ⟨0, 0, 0⟩) = f := by
  funext p; simp [Pt.subTwelfths, Pt.addTwelfths]

/-- The operation of a symbol belongs to the group when no origin shift is written. -/
theorem symbol_unshifted {minus : Bool} {l : Lattices} {ws : List Written} {w : Written} {d : Option V3} {f : Pt → Pt}
    (h : (w, d) ∈ withDirections 0 none ws) (hf : HallOperation w d f) : HallGroup minus l ws ⟨0, 0, 0⟩ f := by
  have := HallGroup.symbol (minus := minus) (l := l) (v := ⟨0, 0, 0⟩) h hf
  rwa [noShift f] at this

/-- C74 fails outside `AxesAsRead`: `P 2a 2y` is a symbol of the notation, but its `2y` is read as `2x`, and the 2-fold
rotation about b that the rules put into the group is missing from the group of the result. -/
theorem wrong_axis_wrong_group :
    ∃ (ws : List (List Char × Written)) (n : HallSymbolNotation), ProperlySpaced ws ∧ HallSymbols (ws.map (·.2)) ∧
      latticeText false .P ++ symbolsText ws = "P 2a 2y".toList ∧ HallSymbolNotation.tryFromStr "P 2a 2y".toList = some n ∧
      ∃ f, HallGroup false .P (ws.map (·.2)) ⟨0, 0, 0⟩ f ∧ ¬ SpaceGroup n f := by
  refine ⟨[([' '], ⟨false, .N2, none, .None, [.A]⟩), ([' '], ⟨false, .N2, some .y, .None, []⟩)], hall "P 2a 2y", by decide,
    by decide, by decide +kernel, by decide +kernel, (fun p => ⟨-p.x, p.y, -p.z⟩), ?_, ?_⟩
  · have hop : HallOperation ⟨false, .N2, some .y, .None, []⟩ (some ⟨0, 1, 0⟩) (fun p => ⟨-p.x, p.y, -p.z⟩) := by
      refine ⟨_, rotation_of_code (d := .None) (a := .Y) rfl (by decide) rfl, fun p => ?_⟩
      simp [ofColumns, totalShift, NFoldSub.number]
    exact symbol_unshifted (ws := [⟨false, .N2, none, .None, [.A]⟩, ⟨false, .N2, some .y, .None, []⟩])
      (List.mem_cons_of_mem _ (List.mem_cons_self ..)) hop
  · intro hf
    have hms : (hall "P 2a 2y").seitzMatrices = some [⟨⟨-1, 0, 0, 0, -1, 0, 0, 0, 1⟩, ⟨6, 0, 0⟩, V3.zero, 1⟩,
        ⟨⟨1, 0, 0, 0, -1, 0, 0, 0, -1⟩, V3.zero, V3.zero, 1⟩] := by
      decide +kernel
    have hcert := checkCert_sound (n := hall "P 2a 2y") (ms := [⟨⟨-1, 0, 0, 0, -1, 0, 0, 0, 1⟩, ⟨6, 0, 0⟩, V3.zero, 1⟩,
        ⟨⟨1, 0, 0, 0, -1, 0, 0, 0, -1⟩, V3.zero, V3.zero, 1⟩])
      (L := certList (hall "P 2a 2y") [⟨⟨-1, 0, 0, 0, -1, 0, 0, 0, 1⟩, ⟨6, 0, 0⟩, V3.zero, 1⟩,
        ⟨⟨1, 0, 0, 0, -1, 0, 0, 0, -1⟩, V3.zero, V3.zero, 1⟩]) (by decide +kernel)
    have hn := hcert.consistent hms
    have hz : SpaceGroup (hall "P 2a 2y") _ := .generator (s := ⟨false, .N2, .None, .None, .Z, some [.A]⟩)
      (g := ⟨⟨-1, 0, 0, 0, -1, 0, 0, 0, 1⟩, ⟨6, 0, 0⟩, V3.zero, 1⟩) (by decide +kernel) (by decide +kernel)
    have hx : SpaceGroup (hall "P 2a 2y") _ := .generator (s := ⟨false, .N2, .None, .None, .X, none⟩)
      (g := ⟨⟨1, 0, 0, 0, -1, 0, 0, 0, -1⟩, V3.zero, V3.zero, 1⟩) (by decide +kernel) (by decide +kernel)
    have hcomp := hz.comp (hx.comp hf)
    have ho : (hall "P 2a 2y").originShift.vec = ⟨0, 0, 0⟩ := by decide +kernel
    rw [ho] at hcomp
    have e : (fun p : Pt => (M4.act ⟨⟨-1, 0, 0, 0, -1, 0, 0, 0, 1⟩, ⟨6, 0, 0⟩, V3.zero, 1⟩ (p.subTwelfths ⟨0, 0, 0⟩)).addTwelfths ⟨0, 0, 0⟩) ∘
        (fun p : Pt => (M4.act ⟨⟨1, 0, 0, 0, -1, 0, 0, 0, -1⟩, V3.zero, V3.zero, 1⟩ (p.subTwelfths ⟨0, 0, 0⟩)).addTwelfths ⟨0, 0, 0⟩) ∘
        (fun p : Pt => (⟨-p.x, p.y, -p.z⟩ : Pt)) = (trMat ⟨6, 0, 0⟩).act := by
      rw [trMat_act]
      funext p
      simp [Function.comp, M4.act, V3.zero, Pt.addTwelfths, Pt.subTwelfths]
    rw [e] at hcomp
    have := hn _ hcomp (isTranslation_trMat _)
    rw [isLatticeTranslation_iff] at this
    revert this
    decide +kernel

end Verif
