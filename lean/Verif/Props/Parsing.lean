import Verif.Proofs.Parse
import Verif.Proofs.Basic
import Verif.Proofs.Lattice
import Verif.Spec.Symbol
import Verif.Model.Generate

/-! # Properties of parsing and printing (C15-C22) -/

namespace Verif

/-! ## C15 -/

/-- C15. The loop over matrix symbols ends: any number of iterations above the length of the text is enough, all of them
give the same result, and no more symbols are read than there are characters. -/
theorem parsing_terminates (s : List Char) : ∃ ms rest, ReadsSymbols s ms rest ∧ ms.length ≤ s.length ∧
    ∀ iterations, s.length < iterations → parseSymbols iterations s = some (ms, rest) := by
  obtain ⟨ms, r, _, h2⟩ := parseSymbols_reads (Nat.lt_succ_self s.length)
  refine ⟨ms, r, h2, ?_, fun k hk => parseSymbols_of_reads hk h2⟩
  clear * - h2
  induction h2 with
  | stop => exact Nat.zero_le _
  | next hp _ ih =>
    have := (parseMatrixSymbol_consumes hp).2
    simp only [List.length_cons]
    omega

/-- C15. A successfully read symbol consumes at least one character from the front; a failed read consumes only blanks;
the unwrapped builder never fails: a read fails only when no order follows. -/
theorem symbol_progress (s : List Char) :
    (∃ m r, parseMatrixSymbol s = (some m, r) ∧ (∃ used, used ≠ [] ∧ s = used ++ r) ∧ m.nfoldBody ≠ .Invalid) ∨
    (∃ r blanks, parseMatrixSymbol s = (none, r) ∧ s = blanks ++ r ∧ (∀ c ∈ blanks, Blank c) ∧
      ∀ (minus : Bool) (f : NFold) (t : List Char), f ≠ .Invalid → r ≠ (if minus then ['-'] else []) ++ foldChar f :: t) := by
  rcases parseMatrixSymbol_cases s with ⟨hf, h⟩ | ⟨sg, f, r1, m, r, hf, h, hs, hb, _⟩
  · right
    refine ⟨_, s.takeWhile isBlank, h, (List.takeWhile_append_dropWhile (p := isBlank)).symm, ?_, ?_⟩
    · intro c hc
      exact (isBlank_iff c).1 (List.mem_takeWhile_imp hc)
    · intro minus f t hf' e
      rw [e, parseFold_text minus hf'] at hf
      cases hf
  · left
    obtain ⟨⟨used, hu⟩, hlt⟩ := parseMatrixSymbol_consumes h
    refine ⟨m, r, h, ⟨used, ?_, hu.symm⟩, ?_⟩
    · rintro rfl
      rw [List.nil_append] at hu
      subst hu
      omega
    · rw [hb]
      exact (parseFold_consumes hf).2.2

example : parseMatrixSymbol "  -61bw 2".toList = (some ⟨true, .N6, .N1, .None, .Z, some [.B, .W]⟩, " 2".toList) := by
  decide +kernel

/-! ## C16 -/

theorem parseSymbolChar_iff (s : List Char) (l : Lattices) (r : List Char) :
    parseSymbolChar s = some (l, r) ↔ s = latticeChar l :: r := by
  constructor
  · intro h
    unfold parseSymbolChar at h
    split at h <;> cases h <;> rfl
  · rintro rfl
    cases l <;> rfl

theorem parseLatticeSymbol_iff (s : List Char) (minus : Bool) (l : Lattices) (r : List Char) :
    parseLatticeSymbol s = some (⟨minus, l⟩, r) ↔ s = latticeText minus l ++ r := by
  constructor
  · intro h
    unfold parseLatticeSymbol at h
    split at h
    · obtain ⟨⟨c, r'⟩, hp, e⟩ := Option.map_eq_some_iff.1 h
      cases e
      rw [(parseSymbolChar_iff _ _ _).1 hp]
      rfl
    · obtain ⟨⟨c, r'⟩, hp, e⟩ := Option.map_eq_some_iff.1 h
      cases e
      rw [(parseSymbolChar_iff _ _ _).1 hp]
      rfl
  · rintro rfl
    cases minus <;> cases l <;> rfl

theorem parseHallSymbol_eq {s r rest : List Char} {minus : Bool} {l : Lattices} {ms : List MatrixSymbol}
    (hs : s = latticeText minus l ++ r) (hr : ReadsSymbols r ms rest) :
    parseHallSymbol s = (parseOriginShift rest).map fun x => (⟨⟨minus, l⟩, restore ms, x.1⟩, x.2) := by
  unfold parseHallSymbol
  rw [(parseLatticeSymbol_iff s minus l r).2 hs]
  simp only []
  rw [parseSymbols_of_reads (Nat.lt_succ_self _) hr]
  simp only []
  cases parseOriginShift rest with
  | none => rfl
  | some x => rfl

/-- C16. Exactly which texts are rejected. -/
theorem rejected_iff (s : List Char) : HallSymbolNotation.tryFromStr s = none ↔
    (∀ minus l r, s ≠ latticeText minus l ++ r) ∨
    ∃ minus l r ms rest vs junk, s = latticeText minus l ++ r ∧ ReadsSymbols r ms rest ∧ ShiftText rest vs junk ∧
      (vs.length = 1 ∨ vs.length = 2) := by
  unfold HallSymbolNotation.tryFromStr
  rw [Option.map_eq_none_iff]
  by_cases h : ∃ minus l r, s = latticeText minus l ++ r
  · obtain ⟨minus, l, r, hs⟩ := h
    obtain ⟨ms, rest, _, hr⟩ := parseSymbols_reads (Nat.lt_succ_self r.length)
    rw [parseHallSymbol_eq hs hr, Option.map_eq_none_iff, parseOriginShift_none]
    constructor
    · rintro ⟨vs, junk, h1, h2⟩
      exact Or.inr ⟨minus, l, r, ms, rest, vs, junk, hs, hr, h1, h2⟩
    · rintro (h | ⟨minus', l', r', ms', rest', vs, junk, hs', hr', h1, h2⟩)
      · exact absurd hs (h minus l r)
      · have e := (parseLatticeSymbol_iff s minus l r).2 hs
        rw [(parseLatticeSymbol_iff s minus' l' r').2 hs'] at e
        cases e
        obtain ⟨_, rfl⟩ := hr.unique hr'
        exact ⟨vs, junk, h1, h2⟩
  · have hn : parseHallSymbol s = none := by
      unfold parseHallSymbol
      cases hl : parseLatticeSymbol s with
      | none => rfl
      | some x =>
        obtain ⟨⟨m, l⟩, r⟩ := x
        exact absurd ⟨m, l, r, (parseLatticeSymbol_iff _ _ _ _).1 hl⟩ h
    refine ⟨fun _ => Or.inl fun minus l r hs => h ⟨minus, l, r, hs⟩, fun _ => hn⟩

example : HallSymbolNotation.tryFromStr "X 2".toList = none ∧ HallSymbolNotation.tryFromStr "P 2 (1 -5)".toList = none ∧
    (HallSymbolNotation.tryFromStr "P 2 (1 -5 0)".toList).isSome := by decide +kernel

/-! ## C17: written symbols are read completely -/

/-- The end of a symbol: blanks only (no shift), or a shift of three integers followed by anything. -/
inductive TailText : List Char → OriginShift → List Char → Prop
  | none {tail : List Char} : (∀ c ∈ tail, Blank c) → TailText tail ⟨0, 0, 0⟩ []
  | shift {tail junk : List Char} {a b c : Int} : ShiftText tail [a, b, c] junk → TailText tail (OriginShift.new a b c) junk

theorem TailText.facts {tail junk : List Char} {o : OriginShift} (h : TailText tail o junk) :
    Stops tail ∧ parseFold (space0 tail) = Option.none ∧ parseOriginShift (space0 tail) = some (o, junk) := by
  cases h with
  | none hb =>
    have e : space0 tail = [] := by
      have := space0_append hb []
      rwa [List.append_nil] at this
    refine ⟨?_, by rw [e]; rfl, by rw [e]; rfl⟩
    cases tail with
    | nil => exact stops_nil
    | cons c cs => exact stops_blank (hb c (List.mem_cons_self ..)) _
  | shift hs =>
    obtain ⟨b, t, hb, ht, rfl⟩ := hs
    have e : space0 (b ++ '(' :: t ++ ')' :: junk) = '(' :: t ++ ')' :: junk := by
      rw [List.append_assoc, space0_append hb]
      rfl
    refine ⟨?_, by rw [e]; rfl, ?_⟩
    · cases b with
      | nil => exact stops_paren _
      | cons c cs => exact stops_blank (hb c (List.mem_cons_self ..)) _
    · rw [e]
      exact parseOriginShift_three ⟨[], t, by simp, ht, by simp⟩

/-- Reading a written symbol. -/
theorem written_parsed {minus : Bool} {l : Lattices} {ws : List (List Char × Written)} {tail junk : List Char}
    {o : OriginShift} (hw : ProperlySpaced ws) (ht : TailText tail o junk) :
    parseHallSymbol (latticeText minus l ++ symbolsText ws ++ tail) =
      some (⟨⟨minus, l⟩, restore (ws.map fun bw => bw.2.raw), o⟩, junk) := by
  obtain ⟨h1, h2, h3⟩ := ht.facts
  rw [parseHallSymbol_eq (r := symbolsText ws ++ tail) (by rw [List.append_assoc]) (reads_text hw h1 h2), h3]
  rfl

/-- C17, for texts written by the grammar: everything is used, and every part of the notation is what was written (lattice,
signs, orders, subscripts, letters, number of symbols, shift). (Missing: texts outside the grammar, for which unread or
ill-formed parts are ignored, see `junk_ignored`.) -/
theorem written_consumed_partial {minus : Bool} {l : Lattices} {ws : List (List Char × Written)} {tail : List Char}
    {o : OriginShift} (hw : ProperlySpaced ws) (ht : TailText tail o []) :
    ∃ n, parseHallSymbol (latticeText minus l ++ symbolsText ws ++ tail) = some (n, []) ∧
      n.latticeSymbol = ⟨minus, l⟩ ∧ n.originShift = o ∧ n.matrixSymbols.length = ws.length ∧
      ∀ (i : Nat) (w : List Char × Written) (m : MatrixSymbol), ws[i]? = some w → n.matrixSymbols[i]? = some m →
        m.minusSign = w.2.minus ∧ m.nfoldBody = w.2.fold ∧ m.nfoldSub = w.2.sub ∧
          m.translationSymbols.getD [] = w.2.letters := by
  refine ⟨_, written_parsed hw ht, rfl, rfl, ?_, ?_⟩
  · match ws with
    | [] => rfl
    | [a] => rfl
    | [a, b] => rfl
    | a :: b :: c :: rest => simp [restore]
  · have hraw : ∀ w : Written, w.raw.minusSign = w.minus ∧ w.raw.nfoldBody = w.fold ∧ w.raw.nfoldSub = w.sub ∧
        w.raw.translationSymbols.getD [] = w.letters := by
      intro w
      refine ⟨rfl, rfl, rfl, ?_⟩
      unfold Written.raw lettersOpt
      simp only []
      split
      · rename_i h; rw [h]; rfl
      · rfl
    have h1 : ∀ m : MatrixSymbol, (restoreFirst m).minusSign = m.minusSign ∧ (restoreFirst m).nfoldBody = m.nfoldBody ∧
        (restoreFirst m).nfoldSub = m.nfoldSub ∧ (restoreFirst m).translationSymbols = m.translationSymbols := by
      intro m; unfold restoreFirst; split <;> exact ⟨rfl, rfl, rfl, rfl⟩
    have h2 : ∀ (p : NFold) (m : MatrixSymbol), (restoreSecond p m).minusSign = m.minusSign ∧
        (restoreSecond p m).nfoldBody = m.nfoldBody ∧ (restoreSecond p m).nfoldSub = m.nfoldSub ∧
        (restoreSecond p m).translationSymbols = m.translationSymbols := by
      intro p m; unfold restoreSecond
      split
      · split <;> exact ⟨rfl, rfl, rfl, rfl⟩
      · exact ⟨rfl, rfl, rfl, rfl⟩
    have h3 : ∀ m : MatrixSymbol, (restoreThird m).minusSign = m.minusSign ∧ (restoreThird m).nfoldBody = m.nfoldBody ∧
        (restoreThird m).nfoldSub = m.nfoldSub ∧ (restoreThird m).translationSymbols = m.translationSymbols := by
      intro m; unfold restoreThird; split <;> exact ⟨rfl, rfl, rfl, rfl⟩
    intro i w m hi hm
    obtain ⟨b1, b2, b3, b4⟩ := hraw w.2
    rw [← b1, ← b2, ← b3, ← b4]
    simp only [] at hm
    match ws, i, hi, hm with
    | [a], 0, hi, hm =>
      cases hi; cases hm
      obtain ⟨a1, a2, a3, a4⟩ := h1 w.2.raw
      rw [a1, a2, a3, a4]; exact ⟨rfl, rfl, rfl, rfl⟩
    | [a, b], 0, hi, hm =>
      cases hi; cases hm
      obtain ⟨a1, a2, a3, a4⟩ := h1 w.2.raw
      rw [a1, a2, a3, a4]; exact ⟨rfl, rfl, rfl, rfl⟩
    | [a, b], 1, hi, hm =>
      cases hi; cases hm
      obtain ⟨a1, a2, a3, a4⟩ := h2 a.2.raw.nfoldBody w.2.raw
      rw [a1, a2, a3, a4]; exact ⟨rfl, rfl, rfl, rfl⟩
    | a :: b :: c :: rest, 0, hi, hm =>
      cases hi; cases hm
      obtain ⟨a1, a2, a3, a4⟩ := h1 w.2.raw
      rw [a1, a2, a3, a4]; exact ⟨rfl, rfl, rfl, rfl⟩
    | a :: b :: c :: rest, 1, hi, hm =>
      cases hi; cases hm
      obtain ⟨a1, a2, a3, a4⟩ := h2 a.2.raw.nfoldBody w.2.raw
      rw [a1, a2, a3, a4]; exact ⟨rfl, rfl, rfl, rfl⟩
    | a :: b :: c :: rest, 2, hi, hm =>
      cases hi; cases hm
      obtain ⟨a1, a2, a3, a4⟩ := h3 w.2.raw
      rw [a1, a2, a3, a4]; exact ⟨rfl, rfl, rfl, rfl⟩
    | a :: b :: c :: rest, i + 3, hi, hm =>
      simp only [List.getElem?_cons_succ, List.map_cons, restore, List.getElem?_map] at hi hm
      rw [hi] at hm
      cases hm
      exact ⟨rfl, rfl, rfl, rfl⟩

/-- Sample for the grammar: `-C 2c -4'1 (0 -3 5)`. -/
def sampleWs : List (List Char × Written) :=
  [([' '], ⟨false, .N2, none, .None, [.C]⟩), ([' ', '\t'], ⟨true, .N4, some .quote, .N1, []⟩)]

example : ProperlySpaced sampleWs ∧ TailText " (0 -3 5)".toList (OriginShift.new 0 (-3) 5) [] ∧
    latticeText true .C ++ symbolsText sampleWs ++ " (0 -3 5)".toList = "-C 2c \t-4'1 (0 -3 5)".toList := by
  refine ⟨?_, .shift ⟨[' '], "0 -3 5".toList, ?_, ?_, by decide⟩, by decide⟩
  · refine ⟨?_, ⟨by decide, by decide⟩, ?_⟩
    · intro c hc; rw [List.mem_singleton.1 hc]; exact Or.inl rfl
    · intro bw hbw
      rw [List.mem_singleton.1 hbw]
      refine ⟨?_, by decide, ⟨by decide, by decide⟩⟩
      intro c hc
      rcases List.mem_cons.1 hc with rfl | hc
      · exact Or.inl rfl
      · exact Or.inr (List.mem_singleton.1 hc)
  · intro c hc; rw [List.mem_singleton.1 hc]; exact Or.inl rfl
  · have hb : ∀ c ∈ [' '], Blank c := by intro c hc; rw [List.mem_singleton.1 hc]; exact Or.inl rfl
    have h3 : IntText ['-', '3'] (-3) := .minus (d := '3') (ds := []) (by unfold DecimalDigit; decide) (by decide) (by simp)
    have h5 : IntText ['5'] 5 := .plain (d := '5') (ds := []) (by unfold DecimalDigit; decide) (by decide) (by simp)
    exact .more (t := ['0']) (b := [' ']) .zero (by unfold FitsI32; omega) (by decide) hb
      (.more (t := ['-', '3']) (b := [' ']) h3 (by unfold FitsI32; omega) (by decide) hb
        (.one h5 (by unfold FitsI32; omega)))

/-- C17 fails in general: trailing text, an axis written twice, a misspelt or oversized shift are ignored. -/
theorem junk_ignored :
    HallSymbolNotation.tryFromStr "P 2junk".toList = HallSymbolNotation.tryFromStr "P 2".toList ∧
    HallSymbolNotation.tryFromStr "P 2xy".toList = HallSymbolNotation.tryFromStr "P 2".toList ∧
    HallSymbolNotation.tryFromStr "P 2 (1,2,3)".toList = HallSymbolNotation.tryFromStr "P 2".toList ∧
    HallSymbolNotation.tryFromStr "P 2 (2147483648 0 0)".toList = HallSymbolNotation.tryFromStr "P 2".toList ∧
    HallSymbolNotation.tryFromStr "P 2 5 2".toList = HallSymbolNotation.tryFromStr "P 2".toList ∧
    (HallSymbolNotation.tryFromStr "P 2".toList).isSome := by decide +kernel

/-! ## C20, C21: axes -/

/-- C20. Default axes: with no axis mark, the first symbol turns about c, a second 2-fold about a (after 2 or 4) or a-b
(after 3 or 6), and a third 3-fold about a+b+c (whatever mark is written). -/
theorem default_axes {minus : Bool} {l : Lattices} {ws : List (List Char × Written)} {tail junk : List Char}
    {o : OriginShift} (hw : ProperlySpaced ws) (ht : TailText tail o junk) {n : HallSymbolNotation}
    (hn : HallSymbolNotation.tryFromStr (latticeText minus l ++ symbolsText ws ++ tail) = some n) :
    (∀ w m, ws[0]? = some w → n.matrixSymbols[0]? = some m → w.2.axis = none →
      axisDirection m.nfoldDiag m.rotationAxis = some ⟨0, 0, 1⟩) ∧
    (∀ w0 w m, ws[0]? = some w0 → ws[1]? = some w → n.matrixSymbols[1]? = some m → w.2.fold = .N2 → w.2.axis = none →
      (w0.2.fold = .N2 ∨ w0.2.fold = .N4 → axisDirection m.nfoldDiag m.rotationAxis = some ⟨1, 0, 0⟩) ∧
      (w0.2.fold = .N3 ∨ w0.2.fold = .N6 → axisDirection m.nfoldDiag m.rotationAxis = some ⟨1, -1, 0⟩)) ∧
    (∀ w m, ws[2]? = some w → n.matrixSymbols[2]? = some m → w.2.fold = .N3 →
      axisDirection m.nfoldDiag m.rotationAxis = some ⟨1, 1, 1⟩) := by
  unfold HallSymbolNotation.tryFromStr at hn
  rw [written_parsed hw ht] at hn
  cases hn
  refine ⟨?_, ?_, ?_⟩
  · intro w m hi hm ha
    have key : ∀ w : Written, w.axis = none →
        axisDirection (restoreFirst w.raw).nfoldDiag (restoreFirst w.raw).rotationAxis = some ⟨0, 0, 1⟩ := by
      intro w ha
      simp [restoreFirst, Written.raw, ha, axisDirection, RotationAxis.direction]
    match ws, hi, hm with
    | [a], hi, hm => cases hi; cases hm; exact key _ ha
    | [a, b], hi, hm => cases hi; cases hm; exact key _ ha
    | a :: b :: c :: rest, hi, hm => cases hi; cases hm; exact key _ ha
  · intro w0 w m hi0 hi hm hf ha
    have key : (w0.2.fold = .N2 ∨ w0.2.fold = .N4 →
          axisDirection (restoreSecond w0.2.fold w.2.raw).nfoldDiag (restoreSecond w0.2.fold w.2.raw).rotationAxis =
            some ⟨1, 0, 0⟩) ∧
        (w0.2.fold = .N3 ∨ w0.2.fold = .N6 →
          axisDirection (restoreSecond w0.2.fold w.2.raw).nfoldDiag (restoreSecond w0.2.fold w.2.raw).rotationAxis =
            some ⟨1, -1, 0⟩) := by
      constructor <;> rintro (h | h) <;> rw [h] <;>
        simp [restoreSecond, Written.raw, hf, ha, axisDirection, RotationAxis.direction]
    match ws, hi0, hi, hm with
    | [a, b], hi0, hi, hm => cases hi0; cases hi; cases hm; exact key
    | a :: b :: c :: rest, hi0, hi, hm => cases hi0; cases hi; cases hm; exact key
  · intro w m hi hm hf
    match ws, hi, hm with
    | a :: b :: c :: rest, hi, hm =>
      cases hi; cases hm
      simp [restoreThird, Written.raw, hf, axisDirection]

example : (HallSymbolNotation.tryFromStr "-P 4a 2bc 3".toList).map (·.matrixSymbols.map fun m => (m.rotationAxis, m.nfoldDiag))
    = some [(.Z, .None), (.X, .None), (.Z, .Asterisk)] := by decide +kernel

/-- C21, for every position except a 2-fold in second place after 2, 3, 4 or 6 and a 3-fold in third place: a written axis
x, y, z is the axis. (Missing: exactly those, see `explicit_axis_overridden`.) -/
theorem explicit_axis_partial {minus : Bool} {l : Lattices} {ws : List (List Char × Written)} {tail junk : List Char}
    {o : OriginShift} (hw : ProperlySpaced ws) (ht : TailText tail o junk) {n : HallSymbolNotation}
    (hn : HallSymbolNotation.tryFromStr (latticeText minus l ++ symbolsText ws ++ tail) = some n)
    {i : Nat} {w : List Char × Written} {m : MatrixSymbol} (hi : ws[i]? = some w) (hm : n.matrixSymbols[i]? = some m)
    (h1 : i = 1 → w.2.fold = .N2 → ∀ w0, ws[0]? = some w0 → w0.2.fold = .N1) (h2 : i = 2 → w.2.fold ≠ .N3) :
    (w.2.axis = some .x → axisDirection m.nfoldDiag m.rotationAxis = some ⟨1, 0, 0⟩) ∧
    (w.2.axis = some .y → axisDirection m.nfoldDiag m.rotationAxis = some ⟨0, 1, 0⟩) ∧
    (w.2.axis = some .z → axisDirection m.nfoldDiag m.rotationAxis = some ⟨0, 0, 1⟩) := by
  unfold HallSymbolNotation.tryFromStr at hn
  rw [written_parsed hw ht] at hn
  cases hn
  have key : ∀ w : Written, (w.axis = some .x → axisDirection w.raw.nfoldDiag w.raw.rotationAxis = some ⟨1, 0, 0⟩) ∧
      (w.axis = some .y → axisDirection w.raw.nfoldDiag w.raw.rotationAxis = some ⟨0, 1, 0⟩) ∧
      (w.axis = some .z → axisDirection w.raw.nfoldDiag w.raw.rotationAxis = some ⟨0, 0, 1⟩) := by
    intro w
    refine ⟨?_, ?_, ?_⟩ <;> intro h <;> simp [Written.raw, h, AxisMark.raw, axisDirection, RotationAxis.direction]
  have keyFirst : ∀ w : Written, (w.axis = some .x →
        axisDirection (restoreFirst w.raw).nfoldDiag (restoreFirst w.raw).rotationAxis = some ⟨1, 0, 0⟩) ∧
      (w.axis = some .y → axisDirection (restoreFirst w.raw).nfoldDiag (restoreFirst w.raw).rotationAxis = some ⟨0, 1, 0⟩) ∧
      (w.axis = some .z → axisDirection (restoreFirst w.raw).nfoldDiag (restoreFirst w.raw).rotationAxis = some ⟨0, 0, 1⟩) := by
    intro w
    refine ⟨?_, ?_, ?_⟩ <;> intro h <;>
      simp [restoreFirst, Written.raw, h, AxisMark.raw, axisDirection, RotationAxis.direction]
  have keySecond : ∀ w0 w : Written, (w.fold = .N2 → w0.fold = .N1) → restoreSecond w0.raw.nfoldBody w.raw = w.raw := by
    intro w0 w h
    unfold restoreSecond
    split
    · rename_i hf
      rw [show w0.raw.nfoldBody = .N1 from h hf]
    · rfl
  have keyThird : ∀ w : Written, w.fold ≠ .N3 → restoreThird w.raw = w.raw := by
    intro w h
    unfold restoreThird
    rw [if_neg (show ¬ w.raw.nfoldBody = .N3 from h)]
  simp only [] at hm
  match ws, i, hi, hm, h1, h2 with
  | [a], 0, hi, hm, _, _ => cases hi; cases hm; exact keyFirst _
  | [a, b], 0, hi, hm, _, _ => cases hi; cases hm; exact keyFirst _
  | [a, b], 1, hi, hm, h1, _ =>
    cases hi; cases hm
    rw [keySecond a.2 w.2 fun hf => h1 rfl hf a rfl]
    exact key _
  | a :: b :: c :: rest, 0, hi, hm, _, _ => cases hi; cases hm; exact keyFirst _
  | a :: b :: c :: rest, 1, hi, hm, h1, _ =>
    cases hi; cases hm
    rw [keySecond a.2 w.2 fun hf => h1 rfl hf a rfl]
    exact key _
  | a :: b :: c :: rest, 2, hi, hm, _, h2 =>
    cases hi; cases hm
    rw [keyThird w.2 (h2 rfl)]
    exact key _
  | a :: b :: c :: rest, i + 3, hi, hm, _, _ =>
    simp only [List.getElem?_cons_succ, List.map_cons, restore, List.getElem?_map] at hi hm
    rw [hi] at hm
    cases hm
    exact key _

/-- C21 fails in the excluded positions: `2y` after 2 is read as `2x`, `2x` after 3 as `2'`, a third `3x` as `3*`. -/
theorem explicit_axis_overridden :
    (HallSymbolNotation.tryFromStr "P 2 2y".toList).map (·.matrixSymbols.map fun m => (m.rotationAxis, m.nfoldDiag)) =
      some [(.Z, .None), (.X, .None)] ∧
    (HallSymbolNotation.tryFromStr "P 3 2x".toList).map (·.matrixSymbols.map fun m => (m.rotationAxis, m.nfoldDiag)) =
      some [(.Z, .None), (.Z, .SingleQuote)] ∧
    (HallSymbolNotation.tryFromStr "P 2 2 3x".toList).map (·.matrixSymbols.map fun m => (m.rotationAxis, m.nfoldDiag)) =
      some [(.Z, .None), (.X, .None), (.X, .Asterisk)] := by decide +kernel

/-- C56, after an order 3 or 6: a quote (double quote) on a 2-fold in second place denotes the face diagonal a-b (a+b).
(Missing: after 2 or 4, see `diagonal_after_four`.) -/
theorem diagonal_second_partial {minus : Bool} {l : Lattices} {ws : List (List Char × Written)} {tail junk : List Char}
    {o : OriginShift} (hw : ProperlySpaced ws) (ht : TailText tail o junk) {n : HallSymbolNotation}
    (hn : HallSymbolNotation.tryFromStr (latticeText minus l ++ symbolsText ws ++ tail) = some n)
    {w0 w : List Char × Written} {m : MatrixSymbol} (h0 : ws[0]? = some w0) (h1 : ws[1]? = some w)
    (hm : n.matrixSymbols[1]? = some m) (hf : w.2.fold = .N2) (hp : w0.2.fold = .N3 ∨ w0.2.fold = .N6) :
    (w.2.axis = some .quote → axisDirection m.nfoldDiag m.rotationAxis = some ⟨1, -1, 0⟩) ∧
    (w.2.axis = some .dquote → axisDirection m.nfoldDiag m.rotationAxis = some ⟨1, 1, 0⟩) := by
  unfold HallSymbolNotation.tryFromStr at hn
  rw [written_parsed hw ht] at hn
  cases hn
  have key : (w.2.axis = some .quote → axisDirection (restoreSecond w0.2.fold w.2.raw).nfoldDiag
        (restoreSecond w0.2.fold w.2.raw).rotationAxis = some ⟨1, -1, 0⟩) ∧
      (w.2.axis = some .dquote → axisDirection (restoreSecond w0.2.fold w.2.raw).nfoldDiag
        (restoreSecond w0.2.fold w.2.raw).rotationAxis = some ⟨1, 1, 0⟩) := by
    constructor <;> intro ha <;> rcases hp with h | h <;> rw [h] <;>
      simp [restoreSecond, Written.raw, hf, ha, AxisMark.raw, axisDirection]
  match ws, h0, h1, hm with
  | [a, b], hi0, hi, hm => cases hi0; cases hi; cases hm; exact key
  | a :: b :: c :: rest, hi0, hi, hm => cases hi0; cases hi; cases hm; exact key

example : (HallSymbolNotation.tryFromStr "P 31 2\"".toList).map (·.matrixSymbols.map fun m => (m.rotationAxis, m.nfoldDiag))
    = some [(.Z, .None), (.Z, .DoubleQuote)] := by decide +kernel

/-- C56 fails after 4: the diagonal of `2'` is taken perpendicular to a instead of c, giving b-c. -/
theorem diagonal_after_four :
    (HallSymbolNotation.tryFromStr "P 4 2'".toList).map (·.matrixSymbols.map fun m => axisDirection m.nfoldDiag m.rotationAxis)
      = some [some ⟨0, 0, 1⟩, some ⟨0, 1, -1⟩] := by decide +kernel

/-! ## C22, C23: origin shift -/

theorem closeComponent_facts (v : Int) : (12 : Int) ∣ OriginShift.closeComponent v - v ∧
    -12 < OriginShift.closeComponent v ∧ OriginShift.closeComponent v < 24 ∧
    OriginShift.closeComponent (OriginShift.closeComponent v) = OriginShift.closeComponent v ∧
    (-12 < v → v < 12 → OriginShift.closeComponent v = v) := by
  unfold OriginShift.closeComponent base
  have h1 := tmod12_cases v
  have h2 := tmod12_cases (Int.tmod v 12 + 12)
  refine ⟨?_, ?_, ?_, ?_, ?_⟩ <;> split <;> first | omega | (split <;> omega)

/-- C22. A shift written as three 32-bit integers is read modulo 12, whatever the spacing. -/
theorem shift_read {minus : Bool} {l : Lattices} {ws : List (List Char × Written)} {tail junk : List Char}
    {a b c : Int} (hw : ProperlySpaced ws) (ht : ShiftText tail [a, b, c] junk) :
    ∃ n, HallSymbolNotation.tryFromStr (latticeText minus l ++ symbolsText ws ++ tail) = some n ∧
      ((12 : Int) ∣ n.originShift.va - a ∧ (12 : Int) ∣ n.originShift.vb - b ∧ (12 : Int) ∣ n.originShift.vc - c) ∧
      ((-12 < a ∧ a < 12 → n.originShift.va = a) ∧ (-12 < b ∧ b < 12 → n.originShift.vb = b) ∧
        (-12 < c ∧ c < 12 → n.originShift.vc = c)) := by
  refine ⟨⟨⟨minus, l⟩, restore (ws.map fun bw => bw.2.raw), OriginShift.new a b c⟩, ?_, ?_, ?_⟩
  · unfold HallSymbolNotation.tryFromStr
    rw [written_parsed hw (.shift ht)]
    rfl
  · exact ⟨(closeComponent_facts a).1, (closeComponent_facts b).1, (closeComponent_facts c).1⟩
  · exact ⟨fun h => (closeComponent_facts a).2.2.2.2 h.1 h.2, fun h => (closeComponent_facts b).2.2.2.2 h.1 h.2,
      fun h => (closeComponent_facts c).2.2.2.2 h.1 h.2⟩

/-- C22. Without a shift text the shift is zero. -/
theorem no_shift_read {minus : Bool} {l : Lattices} {ws : List (List Char × Written)} {tail : List Char}
    (hw : ProperlySpaced ws) (ht : ∀ c ∈ tail, Blank c) :
    ∃ n, HallSymbolNotation.tryFromStr (latticeText minus l ++ symbolsText ws ++ tail) = some n ∧
      n.originShift = ⟨0, 0, 0⟩ := by
  refine ⟨⟨⟨minus, l⟩, restore (ws.map fun bw => bw.2.raw), ⟨0, 0, 0⟩⟩, ?_, rfl⟩
  unfold HallSymbolNotation.tryFromStr
  rw [written_parsed hw (.none ht)]
  rfl

example : (HallSymbolNotation.tryFromStr "P 2 2 ( -1 0 15)".toList).map (·.originShift) = some ⟨0, 0, 0⟩ ∧
    (HallSymbolNotation.tryFromStr "P 2 2\t(-1 0  15)".toList).map (·.originShift) = some ⟨-1, 0, 15⟩ := by decide +kernel

/-- C23. `OriginShift::new`: congruent modulo 12, idempotent, unchanged between -12 and 12, and never outside `-11..=23`.
(Missing: the documented bound `(-12, 12)` fails, see `shift_out_of_range`.) -/
theorem shift_normalised_partial (a b c : Int) :
    V3.Cong (OriginShift.new a b c).vec ⟨a, b, c⟩ ∧
    OriginShift.new (OriginShift.new a b c).va (OriginShift.new a b c).vb (OriginShift.new a b c).vc = OriginShift.new a b c ∧
    (∀ v ∈ (OriginShift.new a b c).vec.toList, -12 < v ∧ v < 24) ∧
    ((-12 < a ∧ a < 12) → (-12 < b ∧ b < 12) → (-12 < c ∧ c < 12) → OriginShift.new a b c = ⟨a, b, c⟩) := by
  obtain ⟨a1, a2, a3, a4, a5⟩ := closeComponent_facts a
  obtain ⟨b1, b2, b3, b4, b5⟩ := closeComponent_facts b
  obtain ⟨c1, c2, c3, c4, c5⟩ := closeComponent_facts c
  refine ⟨⟨a1, b1, c1⟩, ?_, ?_, ?_⟩
  · simp only [OriginShift.new, a4, b4, c4]
  · intro v hv
    simp only [OriginShift.new, OriginShift.vec, V3.toList, List.mem_cons, List.not_mem_nil, or_false] at hv
    rcases hv with rfl | rfl | rfl
    · exact ⟨a2, a3⟩
    · exact ⟨b2, b3⟩
    · exact ⟨c2, c3⟩
  · intro ha hb hc
    simp only [OriginShift.new, a5 ha.1 ha.2, b5 hb.1 hb.2, c5 hc.1 hc.2]

/-- C23 fails: the documented range "between (-12, 12)" is left. -/
theorem shift_out_of_range : (OriginShift.new 12 13 (-12)) = ⟨12, 13, 12⟩ := by decide

/-! ## C18, C19: printing and reading back -/

/-- A symbol that a parser can have produced, after the default-axis rules. -/
structure Printable (m : MatrixSymbol) : Prop where
  fold : m.nfoldBody ≠ .Invalid
  letters : ∀ l, m.translationSymbols = some l → l ≠ [] ∧ TranslationSymbol.Invalid ∉ l

theorem letters_valid {l : List Char} (h : ∀ c ∈ l, isTranslationChar c = true) :
    TranslationSymbol.Invalid ∉ l.map TranslationSymbol.ofChar := by
  intro hm
  obtain ⟨c, hc, e⟩ := List.mem_map.1 hm
  have := h c hc
  simp only [isTranslationChar, Bool.or_eq_true, beq_iff_eq] at this
  rcases this with ((((((rfl | rfl) | rfl) | rfl) | rfl) | rfl) | rfl) | rfl <;> cases e

theorem parseTranslations_valid {s r : List Char} {sub : NFoldSub} {trs : Option (List TranslationSymbol)}
    (h : parseTranslations s = some ((sub, trs), r)) :
    ∀ l, trs = some l → l ≠ [] ∧ TranslationSymbol.Invalid ∉ l := by
  intro l hl
  unfold parseTranslations at h
  split at h
  · cases h
  · rename_i c cs
    split at h
    · simp only [] at h
      split at h
      · cases h; cases hl
      · rename_i hne
        cases h
        cases hl
        refine ⟨?_, letters_valid fun c hc => List.mem_takeWhile_imp hc⟩
        intro e
        rw [List.map_eq_nil_iff] at e
        rw [e] at hne
        exact hne rfl
    · split at h
      · rename_i hc
        cases h
        cases hl
        refine ⟨by simp [hc], letters_valid fun c hc => List.mem_takeWhile_imp hc⟩
      · cases h

/-- The axis marks a parser can produce. -/
def RawAxes (m : MatrixSymbol) : Prop :=
  (m.nfoldDiag = .None ∧ m.rotationAxis ≠ .Omitted) ∨ (m.nfoldDiag ≠ .None ∧ m.rotationAxis = .Omitted)

theorem axisOfSlice_raw {s : List Char} {a : RotationAxis} {d : NFoldDiag} (h : axisOfSlice s = some (a, d)) :
    (d = .None ∧ a ≠ .Omitted) ∨ (d ≠ .None ∧ a = .Omitted) := by
  unfold axisOfSlice at h
  split at h <;> cases h <;> simp

theorem parseMatrixSymbol_printable {s r : List Char} {m : MatrixSymbol} (h : parseMatrixSymbol s = (some m, r)) :
    Printable m ∧ RawAxes m := by
  unfold parseMatrixSymbol parseSignFold at h
  simp only [] at h
  cases hf : parseFold (space0 s) with
  | none => rw [hf] at h; cases h
  | some v =>
    obtain ⟨⟨sg, f⟩, r0⟩ := v
    have hfold := (parseFold_consumes hf).2.2
    rw [hf] at h
    simp only [] at h
    cases ha : parseAxis r0 with
    | mk o r1 =>
      rw [ha] at h
      cases o with
      | none =>
        simp only [] at h
        cases ht : parseTranslations r1 with
        | none =>
          rw [ht] at h
          cases h
          exact ⟨⟨hfold, fun l hl => by cases hl⟩, Or.inl ⟨rfl, by simp⟩⟩
        | some v2 =>
          obtain ⟨⟨sub, trs⟩, r2⟩ := v2
          rw [ht] at h
          cases h
          exact ⟨⟨hfold, parseTranslations_valid ht⟩, Or.inl ⟨rfl, by simp⟩⟩
      | some ax =>
        obtain ⟨a, d⟩ := ax
        have hraw : (d = .None ∧ a ≠ .Omitted) ∨ (d ≠ .None ∧ a = .Omitted) := by
          unfold parseAxis at ha
          simp only [Prod.mk.injEq] at ha
          obtain ⟨sl, _, h2⟩ := Option.bind_eq_some_iff.1 ha.1
          exact axisOfSlice_raw h2
        simp only [] at h
        cases ht : parseTranslations r1 with
        | none =>
          rw [ht] at h
          cases h
          exact ⟨⟨hfold, fun l hl => by cases hl⟩, hraw⟩
        | some v2 =>
          obtain ⟨⟨sub, trs⟩, r2⟩ := v2
          rw [ht] at h
          cases h
          exact ⟨⟨hfold, parseTranslations_valid ht⟩, hraw⟩

theorem ReadsSymbols.printable {s r : List Char} {ms : List MatrixSymbol} (h : ReadsSymbols s ms r) :
    ∀ m ∈ ms, Printable m ∧ RawAxes m := by
  induction h with
  | stop => intro m hm; cases hm
  | next hp _ ih =>
    intro m hm
    rcases List.mem_cons.1 hm with rfl | hm
    · exact parseMatrixSymbol_printable hp
    · exact ih m hm

/-- The pieces of a successful parse. -/
theorem tryFromStr_some {s : List Char} {n : HallSymbolNotation} (h : HallSymbolNotation.tryFromStr s = some n) :
    ∃ raws a b c, n.matrixSymbols = restore raws ∧ (∀ m ∈ raws, Printable m ∧ RawAxes m) ∧
      n.originShift = OriginShift.new a b c := by
  unfold HallSymbolNotation.tryFromStr at h
  obtain ⟨⟨n', junk⟩, h, rfl⟩ := Option.map_eq_some_iff.1 h
  unfold parseHallSymbol at h
  split at h
  · cases h
  · rename_i l r hl
    obtain ⟨ms, rest, e, hr⟩ := parseSymbols_reads (Nat.lt_succ_self r.length)
    rw [e] at h
    simp only [] at h
    cases ho : parseOriginShift rest with
    | none => rw [ho] at h; cases h
    | some x =>
      rw [ho] at h
      cases h
      have : ∃ a b c, x.1 = OriginShift.new a b c := by
        unfold parseOriginShift at ho
        split at ho
        · cases ho; exact ⟨_, _, _, rfl⟩
        · cases ho
        · cases ho; exact ⟨0, 0, 0, rfl⟩
      obtain ⟨a, b, c, hx⟩ := this
      exact ⟨ms, a, b, c, rfl, hr.printable, hx⟩

/-- The marks printed for a symbol. -/
def printedMarks (m : MatrixSymbol) : List AxisMark :=
  (match m.rotationAxis with | .X => [.x] | .Y => [.y] | _ => []) ++
  (match m.nfoldDiag with | .None => [] | .SingleQuote => [.quote] | .DoubleQuote => [.dquote] | .Asterisk => [.star])

/-- A printed symbol as read back, before the default-axis rules. -/
def reread (m : MatrixSymbol) : MatrixSymbol :=
  { m with
    rotationAxis := ((marksRaw (printedMarks m)).getD (.Z, .None)).1
    nfoldDiag := ((marksRaw (printedMarks m)).getD (.Z, .None)).2 }

theorem printed_text {m : MatrixSymbol} (h : Printable m) :
    m.text = symbolText m.minusSign m.nfoldBody (printedMarks m) m.nfoldSub (m.translationSymbols.getD []) := by
  obtain ⟨sg, f, sub, d, a, trs⟩ := m
  have hf : f.text = [foldChar f] := by
    have := h.fold
    cases f <;> first | rfl | exact absurd rfl this
  have hd : a.text ++ d.text = (printedMarks ⟨sg, f, sub, d, a, trs⟩).map AxisMark.char := by
    cases a <;> cases d <;> rfl
  have hs : sub.text = subText sub := by cases sub <;> rfl
  have hl : ∀ l : List TranslationSymbol, TranslationSymbol.Invalid ∉ l →
      l.flatMap TranslationSymbol.text = l.map letterChar := by
    intro l hl
    induction l with
    | nil => rfl
    | cons t l ih =>
      rw [List.flatMap_cons, List.map_cons, ih fun hm => hl (List.mem_cons_of_mem _ hm)]
      cases t <;> first | rfl | exact absurd (List.mem_cons_self ..) hl
  unfold MatrixSymbol.text symbolText
  simp only []
  rw [← hd, hf, hs]
  cases trs with
  | none => simp
  | some l =>
    simp only [Option.getD_some]
    rw [hl l (h.letters l rfl).2]
    simp

theorem printed_read {m : MatrixSymbol} (h : Printable m) {b rest : List Char} (hb : ∀ c ∈ b, Blank c) (hr : Stops rest) :
    parseMatrixSymbol (b ++ m.text ++ rest) = (some (reread m), rest) := by
  have hl : TranslationSymbol.Invalid ∉ m.translationSymbols.getD [] := by
    cases ht : m.translationSymbols with
    | none => simp
    | some l => exact (h.letters l ht).2
  rw [printed_text h, parseMatrixSymbol_marks m.minusSign h.fold (printedMarks m) m.nfoldSub hl hb hr]
  congr 2
  unfold symbolRead reread
  congr 1
  unfold lettersOpt
  cases ht : m.translationSymbols with
  | none => rfl
  | some l => simp only [Option.getD_some]; rw [if_neg (h.letters l ht).1]

theorem reads_printed {ms : List MatrixSymbol} (h : ∀ m ∈ ms, Printable m) {tail : List Char} (ht : Stops tail)
    (hn : parseFold (space0 tail) = none) :
    ReadsSymbols (' ' :: (M4.joinWith [' '] (ms.map MatrixSymbol.text) ++ tail)) (ms.map reread) (space0 tail) := by
  have hstop : ∀ b, (∀ c ∈ b, Blank c) → ReadsSymbols (b ++ tail) [] (space0 tail) := by
    intro b hb
    rcases parseMatrixSymbol_cases (b ++ tail) with ⟨_, h'⟩ | ⟨_, _, _, _, _, hf, _⟩
    · rw [space0_append hb] at h'; exact .stop h'
    · rw [space0_append hb, hn] at hf; cases hf
  have hblank : ∀ c ∈ [' '], Blank c := fun c hc => Or.inl (List.mem_singleton.1 hc)
  induction ms with
  | nil => exact hstop [' '] hblank
  | cons m ms ih =>
    cases ms with
    | nil =>
      have := printed_read (h m (List.mem_cons_self ..)) hblank ht
      refine .next (r := tail) ?_ (hstop [] (by simp))
      rw [← this]
      simp [M4.joinWith]
    | cons m2 ms =>
      have hr := ih fun x hx => h x (List.mem_cons_of_mem _ hx)
      have := printed_read (h m (List.mem_cons_self ..)) (rest := ' ' :: (M4.joinWith [' '] ((m2 :: ms).map MatrixSymbol.text) ++ tail))
        hblank (stops_blank (Or.inl rfl) _)
      refine .next ?_ hr
      rw [← this]
      simp [M4.joinWith]

theorem intText_of_range {v : Int} (h1 : -12 < v) (h2 : v < 24) : IntText (OriginShift.intText v) v ∧ FitsI32 v := by
  refine ⟨?_, by unfold FitsI32; omega⟩
  have hd : ∀ d ds, DecimalDigit d → d ≠ '0' → (∀ c ∈ ds, DecimalDigit c) → IntText (d :: ds) (decimalValue (d :: ds)) :=
    fun d ds a b c => .plain a b c
  have hm : ∀ d ds, DecimalDigit d → d ≠ '0' → (∀ c ∈ ds, DecimalDigit c) →
      IntText ('-' :: d :: ds) (-(decimalValue (d :: ds) : Int)) := fun d ds a b c => .minus a b c
  unfold DecimalDigit at hd hm
  interval_cases v <;> first
    | exact .zero
    | exact hd _ _ (by decide) (by decide) (by decide)
    | exact hm _ _ (by decide) (by decide) (by decide)

theorem shift_printed (a b c : Int) (junk : List Char) :
    ShiftText (' ' :: (OriginShift.new a b c).text ++ junk) [(OriginShift.new a b c).va, (OriginShift.new a b c).vb,
      (OriginShift.new a b c).vc] junk := by
  have hblank : ∀ c ∈ [' '], Blank c := fun c hc => Or.inl (List.mem_singleton.1 hc)
  obtain ⟨_, a2, a3, _, _⟩ := closeComponent_facts a
  obtain ⟨_, b2, b3, _, _⟩ := closeComponent_facts b
  obtain ⟨_, c2, c3, _, _⟩ := closeComponent_facts c
  obtain ⟨ia, fa⟩ := intText_of_range a2 a3
  obtain ⟨ib, fb⟩ := intText_of_range b2 b3
  obtain ⟨ic, fc⟩ := intText_of_range c2 c3
  refine ⟨[' '], _, hblank, .more ia fa (by decide) hblank (.more ib fb (by decide) hblank (.one ic fc)), ?_⟩
  simp [OriginShift.text, OriginShift.new]

/-- What reading back the printed text gives, always. -/
theorem display_reparsed {s : List Char} {n : HallSymbolNotation} (h : HallSymbolNotation.tryFromStr s = some n) :
    parseHallSymbol n.text = some (⟨n.latticeSymbol, restore (n.matrixSymbols.map reread), n.originShift⟩, []) := by
  obtain ⟨raws, a, b, c, hm, hp, ho⟩ := tryFromStr_some h
  have hprint : ∀ m ∈ n.matrixSymbols, Printable m := by
    have h1 : ∀ m, Printable m → Printable (restoreFirst m) := by
      intro m h; unfold restoreFirst; split
      · exact ⟨h.fold, h.letters⟩
      · exact h
    have h2 : ∀ p m, Printable m → Printable (restoreSecond p m) := by
      intro p m h; unfold restoreSecond; split
      · split <;> first | exact h | exact ⟨h.fold, h.letters⟩
      · exact h
    have h3 : ∀ m, Printable m → Printable (restoreThird m) := by
      intro m h; unfold restoreThird; split
      · exact ⟨h.fold, h.letters⟩
      · exact h
    rw [hm]
    match raws, hp with
    | [], _ => intro m hm; cases hm
    | [x], hp =>
      intro m hm
      rw [List.mem_singleton.1 hm]
      exact h1 _ (hp x (by simp)).1
    | [x, y], hp =>
      intro m hm
      rcases List.mem_cons.1 hm with rfl | hm
      · exact h1 _ (hp x (by simp)).1
      · rw [List.mem_singleton.1 hm]; exact h2 _ _ (hp y (by simp)).1
    | x :: y :: z :: rest, hp =>
      intro m hm
      rcases List.mem_cons.1 hm with rfl | hm
      · exact h1 _ (hp x (by simp)).1
      · rcases List.mem_cons.1 hm with rfl | hm
        · exact h2 _ _ (hp y (by simp)).1
        · rcases List.mem_cons.1 hm with rfl | hm
          · exact h3 _ (hp z (by simp)).1
          · exact (hp m (by simp [hm])).1
  have htail : TailText (if n.originShift ≠ OriginShift.default then ' ' :: n.originShift.text else []) n.originShift [] := by
    split
    · have := TailText.shift (shift_printed a b c [])
      rw [List.append_nil, ← ho] at this
      have e : OriginShift.new n.originShift.va n.originShift.vb n.originShift.vc = n.originShift := by
        rw [ho]; exact (shift_normalised_partial a b c).2.1
      rwa [e] at this
    · rename_i hd
      rw [not_not] at hd
      rw [hd]
      exact .none (by simp)
  obtain ⟨t1, t2, t3⟩ := htail.facts
  obtain ⟨⟨minus, l⟩, ms, o⟩ := n
  have hl : LatticeSymbol.text ⟨minus, l⟩ = latticeText minus l := by cases minus <;> cases l <;> rfl
  rw [parseHallSymbol_eq (minus := minus) (l := l) (rest := space0 _) ?_ (reads_printed hprint t1 t2), t3]
  · rfl
  · unfold HallSymbolNotation.text
    rw [hl]
    simp

/-- Symbols whose printed text determines them: a 2-fold in second place after 2 or 4 has no diagonal mark, and a 3-fold in
third place was written with a diagonal mark. -/
def PrintsFaithfully (n : HallSymbolNotation) : Prop :=
  (∀ a b, n.matrixSymbols[0]? = some a → n.matrixSymbols[1]? = some b → (a.nfoldBody = .N2 ∨ a.nfoldBody = .N4) →
    b.nfoldBody = .N2 → b.nfoldDiag = .None) ∧
  (∀ c, n.matrixSymbols[2]? = some c → c.nfoldBody = .N3 → c.rotationAxis = .Omitted)

theorem reread_raw {m : MatrixSymbol} (h : RawAxes m) : reread m = m := by
  obtain ⟨sg, f, sub, d, a, trs⟩ := m
  rcases h with ⟨h1, h2⟩ | ⟨h1, h2⟩
  · simp only [] at h1 h2
    subst h1
    cases a <;> first | rfl | exact absurd rfl h2
  · simp only [] at h1 h2
    subst h2
    cases d <;> first | rfl | exact absurd rfl h1

theorem reread_first {m : MatrixSymbol} (h : RawAxes m) : restoreFirst (reread (restoreFirst m)) = restoreFirst m := by
  obtain ⟨sg, f, sub, d, a, trs⟩ := m
  rcases h with ⟨h1, h2⟩ | ⟨h1, h2⟩
  · simp only [] at h1 h2
    subst h1
    cases a <;> first | rfl | exact absurd rfl h2
  · simp only [] at h1 h2
    subst h2
    cases d <;> first | rfl | exact absurd rfl h1

theorem reread_second {p : NFold} {m : MatrixSymbol} (h : RawAxes m) :
    restoreSecond p (reread (restoreSecond p m)) = restoreSecond p m ↔
      ((p = .N2 ∨ p = .N4) → m.nfoldBody = .N2 → (restoreSecond p m).nfoldDiag = .None) := by
  obtain ⟨sg, f, sub, d, a, trs⟩ := m
  have h' : (d = .None ∧ a ≠ .Omitted) ∨ (d ≠ .None ∧ a = .Omitted) := h
  clear h
  cases f <;> cases p <;> cases d <;> cases a <;>
    simp [restoreSecond, reread, printedMarks, marksRaw, AxisMark.raw] at h' ⊢

theorem reread_third {m : MatrixSymbol} (h : RawAxes m) :
    restoreThird (reread (restoreThird m)) = restoreThird m ↔
      (m.nfoldBody = .N3 → (restoreThird m).rotationAxis = .Omitted) := by
  obtain ⟨sg, f, sub, d, a, trs⟩ := m
  have h' : (d = .None ∧ a ≠ .Omitted) ∨ (d ≠ .None ∧ a = .Omitted) := h
  clear h
  cases f <;> cases d <;> cases a <;>
    simp [restoreThird, reread, printedMarks, marksRaw, AxisMark.raw] at h' ⊢

theorem restoreFirst_fold (m : MatrixSymbol) : (restoreFirst m).nfoldBody = m.nfoldBody := by
  unfold restoreFirst; split <;> rfl

theorem restoreSecond_fold (p : NFold) (m : MatrixSymbol) : (restoreSecond p m).nfoldBody = m.nfoldBody := by
  unfold restoreSecond
  split
  · split <;> rfl
  · rfl

theorem restoreThird_fold (m : MatrixSymbol) : (restoreThird m).nfoldBody = m.nfoldBody := by
  unfold restoreThird; split <;> rfl

/-- C18. Reading back the printed text always succeeds and uses all of it; it gives the notation back exactly when the
notation prints faithfully. (Missing: the other notations, see `display_not_faithful`.) -/
theorem display_roundtrip_partial {s : List Char} {n : HallSymbolNotation} (h : HallSymbolNotation.tryFromStr s = some n) :
    ∃ n', parseHallSymbol n.text = some (n', []) ∧ (n' = n ↔ PrintsFaithfully n) := by
  refine ⟨_, display_reparsed h, ?_⟩
  obtain ⟨raws, _, _, _, hm, hp, _⟩ := tryFromStr_some h
  obtain ⟨l, ms, o⟩ := n
  simp only [] at hm
  subst hm
  simp only [HallSymbolNotation.mk.injEq, true_and, and_true, PrintsFaithfully]
  match raws, hp with
  | [], _ => simp [restore]
  | [x], hp =>
    have := reread_first (hp x (by simp)).2
    simp [restore, this]
  | [x, y], hp =>
    have h1 := reread_first (hp x (by simp)).2
    have h2 := reread_second (p := x.nfoldBody) (hp y (by simp)).2
    have hfold : (reread (restoreFirst x)).nfoldBody = x.nfoldBody := restoreFirst_fold x
    simp only [restore, List.map_cons, List.map_nil, h1, hfold, List.cons.injEq, true_and, and_true, h2]
    simp [restoreFirst_fold, restoreSecond_fold]
  | x :: y :: z :: rest, hp =>
    have h1 := reread_first (hp x (by simp)).2
    have h2 := reread_second (p := x.nfoldBody) (hp y (by simp)).2
    have h3 := reread_third (hp z (by simp)).2
    have hfold : (reread (restoreFirst x)).nfoldBody = x.nfoldBody := restoreFirst_fold x
    have hrest : rest.map reread = rest := by
      conv_rhs => rw [← List.map_id rest]
      exact List.map_congr_left fun m hm => reread_raw (hp m (by simp [hm])).2
    simp only [restore, List.map_cons, h1, hfold, List.cons.injEq, true_and, and_true, h2, h3, hrest]
    simp [restoreFirst_fold, restoreSecond_fold, restoreThird_fold]

/-- A sample of the first case (a text with shift). -/
example : ∃ n, HallSymbolNotation.tryFromStr "-C 2c 2\" (0 -3 5)".toList = some n ∧ n.matrixSymbols.length = 2 ∧
    ¬ PrintsFaithfully n := by
  refine ⟨⟨⟨true, .C⟩, [⟨false, .N2, .None, .None, .Z, some [.C]⟩, ⟨false, .N2, .None, .DoubleQuote, .X, none⟩], ⟨0, -3, 5⟩⟩,
    by decide +kernel, rfl, ?_⟩
  intro h
  exact absurd (h.1 _ _ rfl rfl (Or.inl rfl) rfl) (by decide)

/-- C18 fails: the cubic `P 2 2 3` prints as `P 2 2x 3*`, which is read back with another axis field; `P 4 2'` prints as
`P 4 2x'`, which is read back as `P 4 2`. -/
theorem display_not_faithful :
    (HallSymbolNotation.tryFromStr "P 2 2 3".toList).map (·.text) = some "P 2 2x 3*".toList ∧
    HallSymbolNotation.tryFromStr "P 2 2x 3*".toList ≠ HallSymbolNotation.tryFromStr "P 2 2 3".toList ∧
    (HallSymbolNotation.tryFromStr "P 4 2'".toList).map (·.text) = some "P 4 2x'".toList ∧
    HallSymbolNotation.tryFromStr "P 4 2x'".toList = HallSymbolNotation.tryFromStr "P 4 2".toList ∧
    HallSymbolNotation.tryFromStr "P 4 2x'".toList ≠ HallSymbolNotation.tryFromStr "P 4 2'".toList := by decide +kernel

/-- Notations whose printed text denotes the same operations. -/
def PrintsSameGroup (n : HallSymbolNotation) : Prop :=
  (∀ a b, n.matrixSymbols[0]? = some a → n.matrixSymbols[1]? = some b → (a.nfoldBody = .N2 ∨ a.nfoldBody = .N4) →
    b.nfoldBody = .N2 → b.nfoldDiag = .None) ∧
  (∀ c, n.matrixSymbols[2]? = some c → c.nfoldBody = .N3 → c.nfoldSub = .None ∨ c.rotationAxis = .Omitted)

theorem third_same {m : MatrixSymbol} (h : RawAxes m)
    (h' : m.nfoldBody = .N3 → (restoreThird m).nfoldSub = .None ∨ (restoreThird m).rotationAxis = .Omitted) :
    (restoreThird (reread (restoreThird m))).seitzMatrix = (restoreThird m).seitzMatrix := by
  by_cases hf : m.nfoldBody = .N3
  · by_cases ho : (restoreThird m).rotationAxis = .Omitted
    · rw [(reread_third h).2 fun _ => ho]
    · obtain ⟨sg, f, sub, d, a, trs⟩ := m
      simp only [] at hf
      subst hf
      have hs : sub = .None := by
        rcases h' rfl with h' | h'
        · exact h'
        · exact absurd h' ho
      subst hs
      cases a <;> rfl
  · rw [(reread_third h).2 fun hh => absurd hh hf]

theorem generalPositions_congr {n n' : HallSymbolNotation} (h1 : n'.latticeSymbol = n.latticeSymbol)
    (h2 : n'.originShift = n.originShift) (h3 : n'.seitzMatrices = n.seitzMatrices)
    (h4 : n'.matriceOrder = n.matriceOrder) (k : Nat) : n'.generalPositions k = n.generalPositions k := by
  unfold HallSymbolNotation.generalPositions HallSymbolNotation.generatePositions
  have e1 : ∀ l, n'.sortGeneralPositions l = n.sortGeneralPositions l := by
    intro l; unfold HallSymbolNotation.sortGeneralPositions; rw [h4]
  have e2 : ∀ ms, n'.maxEquivPos ms = n.maxEquivPos ms := by
    intro ms; unfold HallSymbolNotation.maxEquivPos; rw [h1]
  have e3 : ∀ ms, n'.startState ms = n.startState ms := by
    intro ms; unfold HallSymbolNotation.startState; rw [h1, h2]
  simp only [h1, h3, e1, e2, e3]

/-- C19. The notation read back from the printed text has the same general positions (and panics in the same way, and
needs the same number of rounds), provided a 2-fold in second place after 2 or 4 has no diagonal mark and a 3-fold in third
place has no subscript. (Missing: the other notations, see `display_changes_group`.) -/
theorem display_same_group_partial {s : List Char} {n : HallSymbolNotation} (h : HallSymbolNotation.tryFromStr s = some n)
    (hn : PrintsSameGroup n) :
    ∃ n', HallSymbolNotation.tryFromStr n.text = some n' ∧ ∀ rounds, n'.generalPositions rounds = n.generalPositions rounds := by
  refine ⟨⟨n.latticeSymbol, restore (n.matrixSymbols.map reread), n.originShift⟩, ?_, ?_⟩
  · unfold HallSymbolNotation.tryFromStr
    rw [display_reparsed h]
    rfl
  obtain ⟨raws, _, _, _, hm, hp, _⟩ := tryFromStr_some h
  obtain ⟨l, ms, o⟩ := n
  simp only [] at hm
  subst hm
  obtain ⟨hn2, hn3⟩ := hn
  simp only [] at hn2 hn3
  match raws, hp, hn2, hn3 with
  | [], _, _, _ => exact generalPositions_congr rfl rfl rfl rfl
  | [x], hp, _, _ =>
    have := reread_first (hp x (by simp)).2
    have e : restore ((restore [x]).map reread) = restore [x] := by simp [restore, this]
    intro k
    rw [e]
  | [x, y], hp, hn2, _ =>
    have h1 := reread_first (hp x (by simp)).2
    have hfold : (reread (restoreFirst x)).nfoldBody = x.nfoldBody := restoreFirst_fold x
    have h2 := (reread_second (p := x.nfoldBody) (hp y (by simp)).2).2 (by
      intro hpq hf
      exact hn2 _ _ rfl rfl (by rw [restoreFirst_fold]; exact hpq) (by rw [restoreSecond_fold]; exact hf))
    have e : restore ((restore [x, y]).map reread) = restore [x, y] := by simp [restore, h1, hfold, h2]
    intro k
    rw [e]
  | x :: y :: z :: rest, hp, hn2, hn3 =>
    have h1 := reread_first (hp x (by simp)).2
    have hfold : (reread (restoreFirst x)).nfoldBody = x.nfoldBody := restoreFirst_fold x
    have h2 := (reread_second (p := x.nfoldBody) (hp y (by simp)).2).2 (by
      intro hpq hf
      exact hn2 _ _ rfl rfl (by rw [restoreFirst_fold]; exact hpq) (by rw [restoreSecond_fold]; exact hf))
    have h3 := third_same (hp z (by simp)).2 (fun hf => hn3 _ rfl (by rw [restoreThird_fold]; exact hf))
    have hrest : rest.map reread = rest := by
      conv_rhs => rw [← List.map_id rest]
      exact List.map_congr_left fun m hm => reread_raw (hp m (by simp [hm])).2
    have e : restore ((restore (x :: y :: z :: rest)).map reread) =
        restoreFirst x :: restoreSecond x.nfoldBody y :: restoreThird (reread (restoreThird z)) :: rest := by
      simp [restore, h1, hfold, h2, hrest]
    refine generalPositions_congr rfl rfl ?_ ?_
    · unfold HallSymbolNotation.seitzMatrices
      simp only []
      rw [e]
      simp only [restore, List.mapM_cons, h3]
    · unfold HallSymbolNotation.matriceOrder
      simp only []
      rw [e]
      rfl

example : ∃ n, HallSymbolNotation.tryFromStr "P 2 2 3".toList = some n ∧ PrintsSameGroup n := by
  refine ⟨⟨⟨false, .P⟩, [⟨false, .N2, .None, .None, .Z, none⟩, ⟨false, .N2, .None, .None, .X, none⟩,
    ⟨false, .N3, .None, .Asterisk, .Z, none⟩], ⟨0, 0, 0⟩⟩, by decide +kernel, ?_, ?_⟩
  · intro a b ha hb _ _; cases ha; cases hb; rfl
  · intro c hc _; cases hc; exact Or.inl rfl

/-- C19 fails: `P 4 2'` has 24 general positions, the text it prints as has 8. -/
theorem display_changes_group :
    ∃ n n' : HallSymbolNotation, HallSymbolNotation.tryFromStr "P 4 2'".toList = some n ∧
      HallSymbolNotation.tryFromStr n.text = some n' ∧
      ((n.generalPositions 10).map fun r => r.map (·.corePositionSet.length)) = some (.ok 24) ∧
      ((n'.generalPositions 10).map fun r => r.map (·.corePositionSet.length)) = some (.ok 8) := by
  refine ⟨⟨⟨false, .P⟩, [⟨false, .N4, .None, .None, .Z, none⟩, ⟨false, .N2, .None, .SingleQuote, .X, none⟩], ⟨0, 0, 0⟩⟩,
    ⟨⟨false, .P⟩, [⟨false, .N4, .None, .None, .Z, none⟩, ⟨false, .N2, .None, .None, .X, none⟩], ⟨0, 0, 0⟩⟩, ?_, ?_, ?_, ?_⟩ <;>
    decide +kernel

end Verif
