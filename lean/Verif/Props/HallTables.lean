import Verif.Props.HallText
import Verif.Props.TableGroups
import Verif.Props.Orbits

/-! # The tabulated symbols, from text to group (C75) -/

namespace Verif

set_option maxRecDepth 100000

/-- A digit of an order. -/
def scanFold (c : Char) : Option NFold :=
  [NFold.N1, .N2, .N3, .N4, .N6].find? (fun f => foldChar f == c)

/-- Reading one symbol back from its text; only used to find the written form of a tabulated symbol (the result is checked
by writing it again). -/
def scanSymbol (s : List Char) : Option (Written × List Char) :=
  let (minus, s) := match s with | '-' :: r => (true, r) | _ => (false, s)
  match s with
  | [] => none
  | c :: s =>
    match scanFold c with
    | none => none
    | some f =>
      let (axis, s) := match s with
        | [] => (none, s)
        | c :: r => match [AxisMark.x, .y, .z, .quote, .dquote, .star].find? (fun a => a.char == c) with
          | some a => (some a, r)
          | none => (none, s)
      let (sub, s) := match s with
        | [] => (NFoldSub.None, s)
        | c :: r => match [NFoldSub.N1, .N2, .N3, .N4, .N5].find? (fun a => subText a == [c]) with
          | some a => (a, r)
          | none => (NFoldSub.None, s)
      let letters := s.takeWhile (fun c => c != ' ')
      some (⟨minus, f, axis, sub, letters.map fun c =>
        (([TranslationSymbol.A, .B, .C, .N, .U, .V, .W, .D].find? (fun t => letterChar t == c)).getD .Invalid)⟩,
        s.dropWhile (fun c => c != ' '))

/-- Reading symbols until the end or a parenthesis. -/
def scanSymbols : Nat → List Char → List (List Char × Written) × List Char
  | 0, s => ([], s)
  | fuel + 1, s =>
    match scanSymbol (s.dropWhile (· == ' ')) with
    | none => ([], s)
    | some (w, r) =>
      let (ws, t) := scanSymbols fuel r
      ((s.takeWhile (· == ' '), w) :: ws, t)

/-- The written form of a symbol of the tables. -/
structure Scanned where
  minus : Bool
  lattice : Lattices
  symbols : List (List Char × Written)
  tail : List Char
  shift : V3

/-- Reading a whole symbol. -/
def scan (s : List Char) : Option Scanned :=
  let (minus, s) := match s with | '-' :: r => (true, r) | _ => (false, s)
  match s with
  | [] => none
  | c :: s =>
    match [Lattices.P, .A, .B, .C, .I, .R, .F].find? (fun l => latticeChar l == c) with
    | none => none
    | some l =>
      let (ws, t) := scanSymbols 5 s
      match tabulatedTails.find? (fun tv => tv.1 == t) with
      | none => none
      | some tv => some ⟨minus, l, ws, t, tv.2⟩

/-- The check of one tabulated symbol. -/
def scanCheck (h : String) : Bool :=
  match scan h.toList with
  | none => false
  | some x => decide (latticeText x.minus x.lattice ++ symbolsText x.symbols ++ x.tail = h.toList) &&
      decide (ProperlySpaced x.symbols) && tabulatedTails.contains (x.tail, x.shift) &&
      decide (HallSymbols (x.symbols.map (·.2))) && decide (AxesAsRead (x.symbols.map (·.2))) &&
      (! x.minus || x.shift == ⟨0, 0, 0⟩)

theorem scan_full : (Data.hallName.all fun h => scanCheck h || h == "F 2 -2yd") = true := by decide +kernel

theorem scan_default : (Data.defaultHallName.all fun h => scanCheck h || h == "F 2 -2yd") = true := by decide +kernel

/-- The operation of a symbol is unique. -/
theorem operation_unique {w : Written} {d : Option V3} (hv : w.Valid) (hr : RotationWritten w d) {f f' : Pt → Pt}
    (h : HallOperation w d f) (h' : HallOperation w d f') : f = f' := by
  obtain ⟨R, h1, h2⟩ := h
  obtain ⟨R', h1', h2'⟩ := h'
  obtain rfl := (rotation_unique hv hr).unique h1 h1'
  funext p
  rw [h2 p, h2' p]

/-- Two lists of symbols generate the same group when the operations of each are in the group of the other. -/
theorem hallGroup_le {minus : Bool} {l : Lattices} {ws ws' : List Written} {v : V3}
    (h : ∀ w d f, (w, d) ∈ withDirections 0 none ws → HallOperation w d f →
      HallGroup minus l ws' v (fun p => (f (p.subTwelfths v)).addTwelfths v)) {f : Pt → Pt}
    (hf : HallGroup minus l ws v f) : HallGroup minus l ws' v f := by
  induction hf with
  | one => exact .one
  | cell k => exact .cell k
  | centring hq => exact .centring hq
  | inversion hm => exact .inversion hm
  | symbol h1 h2 => exact h _ _ _ h1 h2
  | comp _ _ ih1 ih2 => exact ih1.comp ih2
  | inv _ h1 h2 ih => exact ih.inv h1 h2

/-- The symbol `2`, and `-2d` with and without the mark `y`. -/
def two : Written := ⟨false, .N2, none, .None, []⟩
/-- See `two`. -/
def minusTwoD (axis : Option AxisMark) : Written := ⟨true, .N2, axis, .None, [.D]⟩

theorem op_two : HallOperation two (some ⟨0, 0, 1⟩) (fun p => ⟨-p.x, -p.y, p.z⟩) := by
  refine ⟨_, rotation_of_code (d := .None) (a := .Z) rfl (by decide) rfl, fun p => ?_⟩
  simp [two, ofColumns, totalShift, NFoldSub.number]

theorem op_x : HallOperation (minusTwoD none) (some ⟨1, 0, 0⟩) (fun p => ⟨-p.x + 1 / 4, p.y + 1 / 4, p.z + 1 / 4⟩) := by
  refine ⟨_, rotation_of_code (d := .None) (a := .X) rfl (by decide) rfl, fun p => ?_⟩
  simp [minusTwoD, ofColumns, totalShift, NFoldSub.number, TranslationSymbol.shift]

theorem op_y : HallOperation (minusTwoD (some .y)) (some ⟨0, 1, 0⟩) (fun p => ⟨p.x + 1 / 4, -p.y + 1 / 4, p.z + 1 / 4⟩) := by
  refine ⟨_, rotation_of_code (d := .None) (a := .Y) rfl (by decide) rfl, fun p => ?_⟩
  simp [minusTwoD, ofColumns, totalShift, NFoldSub.number, TranslationSymbol.shift]

/-- In an F lattice `2 -2yd` and `2 -2d` generate the same group. -/
theorem same_fdd2 (f : Pt → Pt) : HallGroup false .F [two, minusTwoD none] ⟨0, 0, 0⟩ f ↔
    HallGroup false .F [two, minusTwoD (some .y)] ⟨0, 0, 0⟩ f := by
  have hx : ∀ axis, HallGroup false .F [two, minusTwoD axis] ⟨0, 0, 0⟩ (fun p => ⟨-p.x, -p.y, p.z⟩) := by
    intro axis
    exact symbol_unshifted (ws := [two, minusTwoD axis]) (List.mem_cons_self ..) op_two
  have hc : ∀ axis, HallGroup false .F [two, minusTwoD axis] ⟨0, 0, 0⟩ (fun p => ⟨p.x + 1 / 2, p.y + 1 / 2, p.z + 0⟩) := by
    intro axis
    exact .centring (q := ⟨1 / 2, 1 / 2, 0⟩) (by simp [centringVectors])
  constructor
  · apply hallGroup_le
    intro w d f hm hf
    rw [noShift f]
    rw [show withDirections 0 none [two, minusTwoD none] = [(two, some ⟨0, 0, 1⟩), (minusTwoD none, some ⟨1, 0, 0⟩)] by decide] at hm
    simp only [List.mem_cons, Prod.mk.injEq, List.not_mem_nil, or_false] at hm
    rcases hm with ⟨rfl, rfl⟩ | ⟨rfl, rfl⟩
    · rw [operation_unique (by decide) (by decide) hf op_two]
      exact hx _
    · rw [operation_unique (by decide) (by decide) hf op_x]
      have hy := symbol_unshifted (minus := false) (l := .F)
        (show (minusTwoD (some .y), some ⟨0, 1, 0⟩) ∈ withDirections 0 none [two, minusTwoD (some .y)] by decide) op_y
      have := (hc (some .y)).comp ((hx (some .y)).comp hy)
      convert this using 1
      funext p
      simp only [Function.comp, Pt.mk.injEq]
      refine ⟨?_, ?_, ?_⟩ <;> ring
  · apply hallGroup_le
    intro w d f hm hf
    rw [noShift f]
    rw [show withDirections 0 none [two, minusTwoD (some .y)] =
      [(two, some ⟨0, 0, 1⟩), (minusTwoD (some .y), some ⟨0, 1, 0⟩)] by decide] at hm
    simp only [List.mem_cons, Prod.mk.injEq, List.not_mem_nil, or_false] at hm
    rcases hm with ⟨rfl, rfl⟩ | ⟨rfl, rfl⟩
    · rw [operation_unique (by decide) (by decide) hf op_two]
      exact hx _
    · rw [operation_unique (by decide) (by decide) hf op_y]
      have hy := symbol_unshifted (minus := false) (l := .F)
        (show (minusTwoD none, some ⟨1, 0, 0⟩) ∈ withDirections 0 none [two, minusTwoD none] by decide) op_x
      have := (hc none).comp ((hx none).comp hy)
      convert this using 1
      funext p
      simp only [Function.comp, Pt.mk.injEq]
      refine ⟨?_, ?_, ?_⟩ <;> ring

/-- C75. Every Hall symbol of both tables is written by the rules of the notation, and the operations listed for it are exactly
the operations of the group the rules prescribe for that text. (One of them, `F 2 -2yd`, is read with the axis x instead
of the written y; its group is the same either way.) -/
theorem tabulated_text (code h : String) (hh : InTables code h) :
    ∃ minus l ws tail v n g, h.toList = latticeText minus l ++ symbolsText ws ++ tail ∧ ProperlySpaced ws ∧
      ShiftWritten tail v ∧ HallSymbols (ws.map (·.2)) ∧ HallSymbolNotation.tryFromStr h.toList = some n ∧ HasPositions n g ∧
      ∀ f, Listed g f ↔ HallGroup minus l (ws.map (·.2)) v f := by
  obtain ⟨n, g, cc, _, hn, hg, hc, _⟩ := tabulated_usable code h hh
  have hcheck : scanCheck h = true ∨ h = "F 2 -2yd" := by
    have key : (scanCheck h || h == "F 2 -2yd") = true := by
      rcases hh with ⟨i, _, h2⟩ | ⟨i, _, h2⟩
      · exact List.all_eq_true.1 scan_full h (List.mem_of_getElem? h2)
      · exact List.all_eq_true.1 scan_default h (List.mem_of_getElem? h2)
    simpa using key
  rcases hcheck with hcheck | rfl
  · unfold scanCheck at hcheck
    cases hx : scan h.toList with
    | none => rw [hx] at hcheck; cases hcheck
    | some x =>
      rw [hx] at hcheck
      simp only [Bool.and_eq_true, decide_eq_true_eq, List.contains_iff_mem, Bool.or_eq_true, Bool.not_eq_true', beq_iff_eq]
        at hcheck
      obtain ⟨⟨⟨⟨⟨c1, c2⟩, c3⟩, c4⟩, c5⟩, c6⟩ := hcheck
      have ht := tabulatedTails_written _ c3
      have hs : x.minus = false ∨ DoubleIsLattice x.lattice x.shift := by
        refine c6.imp id fun e => ?_
        rw [e]
        exact ⟨⟨0, 0, 0⟩, List.mem_cons_self .., ⟨0, 0, 0⟩, by norm_num⟩
      refine ⟨x.minus, x.lattice, x.symbols, x.tail, x.shift, n, g, c1.symm, c2, ht, c4, hn, hg, fun f => ?_⟩
      obtain ⟨n', hn', hgrp⟩ := text_denotes_group_partial (minus := x.minus) (l := x.lattice) c2 ht c4 c5 hs
      rw [c1, hn] at hn'
      obtain rfl := Option.some.inj hn'
      rw [← positions_complete hg hc, hgrp]
  · refine ⟨false, .F, [([' '], two), ([' '], minusTwoD (some .y))], [], ⟨0, 0, 0⟩, n, g, by decide +kernel, by decide,
      .none (by simp), by decide, hn, hg, fun f => ?_⟩
    obtain ⟨n', hn', hgrp⟩ := text_denotes_group_partial (minus := false) (l := .F)
      (ws := [([' '], two), ([' '], minusTwoD none)]) (tail := []) (v := ⟨0, 0, 0⟩) (by decide) (.none (by simp))
      (by decide) (by decide) (Or.inl rfl)
    have e : HallSymbolNotation.tryFromStr "F 2 -2yd".toList =
        HallSymbolNotation.tryFromStr (latticeText false .F ++ symbolsText [([' '], two), ([' '], minusTwoD none)] ++ []) := by
      decide +kernel
    rw [← e, hn] at hn'
    obtain rfl := Option.some.inj hn'
    rw [← positions_complete hg hc, hgrp]
    exact same_fdd2 f

/-- C75, C76. The whole path, for every tabulated symbol: its text follows the rules of the notation, and the triplets printed
for it, applied to any point, give up to whole cells exactly the points that the group prescribed by the rules makes
equivalent to it. -/
theorem tabulated_printed (code h : String) (hh : InTables code h) :
    ∃ minus l ws tail v n g ts, h.toList = latticeText minus l ++ symbolsText ws ++ tail ∧ ProperlySpaced ws ∧
      ShiftWritten tail v ∧ HallSymbols (ws.map (·.2)) ∧ HallSymbolNotation.tryFromStr h.toList = some n ∧ HasPositions n g ∧
      g.pureTxt = .ok ts ∧ (∀ t ∈ ts, ∃ f, Spec.readMap t = some f) ∧
      ∀ p q, (∃ f, HallGroup minus l (ws.map (·.2)) v f ∧ f p = q) ↔
        ∃ t ∈ ts, ∃ f, Spec.readMap t = some f ∧ SameSite (f p) q := by
  obtain ⟨minus, l, ws, tail, v, n, g, h1, h2, h3, h4, h5, h6, h7⟩ := tabulated_text code h hh
  obtain ⟨n', _, _, _, hn, _, hc, _⟩ := tabulated_usable code h hh
  rw [h5] at hn
  obtain rfl := Option.some.inj hn
  obtain ⟨ts, t1, t2, t3⟩ := printed_orbit h6 hc
  refine ⟨minus, l, ws, tail, v, n, g, ts, h1, h2, h3, h4, h5, h6, t1, t2, fun p q => ?_⟩
  rw [← t3]
  unfold Equivalent
  simp only [positions_complete h6 hc, h7]

example : InTables "169" "P 61" ∧ InTables "178" "P 61 2 (0 0 -1)" ∧
    InTables "227:2" "-F 4vw 2vw 3" :=
  ⟨.inl ⟨462, by decide +kernel⟩, .inl ⟨471, by decide +kernel⟩, .inl ⟨525, by decide +kernel⟩⟩

end Verif
