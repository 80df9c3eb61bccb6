import Verif.Proofs.AsRead
import Verif.Props.HallText

/-! # What this library takes a written Hall symbol to mean, for every text of the grammar (C80) -/

namespace Verif

set_option maxRecDepth 100000

/-- C80. Every text of the grammar, with whatever axis marks, subscripts and shift: it is accepted, its group is the group
`ReadGroup` describes, and its symbols are refused by `seitz_matrix` exactly when the description says so. -/
theorem text_read_exactly {minus : Bool} {l : Lattices} {ws : List (List Char × Written)} {tail : List Char} {v : V3}
    (hw : ProperlySpaced ws) (ht : ShiftWritten tail v) :
    ∃ n, HallSymbolNotation.tryFromStr (latticeText minus l ++ symbolsText ws ++ tail) = some n ∧
      (∀ f, SpaceGroup n f ↔ ReadGroup minus l (ws.map (·.2)) v f) ∧
      List.Forall₂ (fun (u : Understood) (s : MatrixSymbol) => (∃ g, s.seitzMatrix = some g) ↔ u.Accepted)
        (asRead 0 none (ws.map (·.2))) n.matrixSymbols := by
  obtain ⟨o, ho, hc⟩ := ht.tail
  have hv := properlySpaced_valid hw
  have e : ws.map (fun bw => bw.2.raw) = (ws.map (·.2)).map Written.raw := by rw [List.map_map]; rfl
  have hr := realises_all (ws.map (·.2))
  rw [← e] at hr
  refine ⟨⟨⟨minus, l⟩, restore (ws.map fun bw => bw.2.raw), o⟩, ?_, ?_, ?_⟩
  · unfold HallSymbolNotation.tryFromStr
    rw [written_parsed hw ho]
    rfl
  · exact fun f => group_of_realises rfl hr hv hc f
  · have hmem : ∀ {us : List Understood} {ms : List MatrixSymbol}, (∀ u ∈ us, u.symbol.Valid) → List.Forall₂ Realises us ms →
        List.Forall₂ (fun (u : Understood) (s : MatrixSymbol) => (∃ g, s.seitzMatrix = some g) ↔ u.Accepted) us ms := by
      intro us ms hus h
      induction h with
      | nil => exact .nil
      | cons h1 _ ih =>
        exact .cons (accepted_iff h1 (hus _ (List.mem_cons_self ..))) (ih fun u hu => hus u (List.mem_cons_of_mem _ hu))
    exact hmem (fun u hu => hv _ (mem_asRead hu)) hr

/-- C80, on the results. When positions are produced and the group of the description has no translations besides those of
the lattice, the operations listed are exactly the operations of that group. -/
theorem read_positions {minus : Bool} {l : Lattices} {ws : List (List Char × Written)} {tail : List Char} {v : V3}
    (hw : ProperlySpaced ws) (ht : ShiftWritten tail v)
    (hc : ∀ f, ReadGroup minus l (ws.map (·.2)) v f → IsTranslation f → IsCentringTranslation l f)
    {n : HallSymbolNotation} {g : GeneralPositions}
    (hn : HallSymbolNotation.tryFromStr (latticeText minus l ++ symbolsText ws ++ tail) = some n) (hg : HasPositions n g)
    (f : Pt → Pt) : Listed g f ↔ ReadGroup minus l (ws.map (·.2)) v f := by
  obtain ⟨n', hn', hgrp, _⟩ := text_read_exactly (minus := minus) (l := l) hw ht
  rw [hn] at hn'
  obtain rfl := Option.some.inj hn'
  have hl : n.latticeSymbol = ⟨minus, l⟩ := by
    obtain ⟨o, ho, _⟩ := ht.tail
    unfold HallSymbolNotation.tryFromStr at hn
    rw [written_parsed hw ho] at hn
    cases hn
    rfl
  have hcons : Consistent n := by
    intro f hf htr
    rw [hl]
    exact (centring_translation minus l f).1 (hc f ((hgrp f).1 hf) htr)
  rw [← positions_complete hg hcons, hgrp]

/-- C80 and C74. The published group and the group of this library agree for the symbols and shifts of C74; this uses both
descriptions and no property of the code. -/
theorem read_group_published {minus : Bool} {l : Lattices} {ws : List (List Char × Written)} {tail : List Char} {v : V3}
    (hw : ProperlySpaced ws) (ht : ShiftWritten tail v) (hh : HallSymbols (ws.map (·.2))) (ha : AxesAsRead (ws.map (·.2)))
    (hs : minus = false ∨ DoubleIsLattice l v) (f : Pt → Pt) :
    ReadGroup minus l (ws.map (·.2)) v f ↔ HallGroup minus l (ws.map (·.2)) v f := by
  obtain ⟨n, hn, h, _⟩ := text_read_exactly (minus := minus) (l := l) hw ht
  obtain ⟨n', hn', h'⟩ := text_denotes_group_partial hw ht hh ha hs
  rw [hn] at hn'
  obtain rfl := Option.some.inj hn'
  rw [← h, h']

/-- Sample: ` 2a 2y`, read as `2a 2x` (the published rules say b). -/
def sampleRead : List (List Char × Written) :=
  [([' '], ⟨false, .N2, none, .None, [.A]⟩), ([' '], ⟨false, .N2, some .y, .None, []⟩)]

example : asRead 0 none (sampleRead.map (·.2)) =
    [⟨⟨false, .N2, none, .None, [.A]⟩, some ⟨0, 0, 1⟩, some ⟨0, 0, 1⟩⟩,
      ⟨⟨false, .N2, some .y, .None, []⟩, some ⟨1, 0, 0⟩, some ⟨0, 1, 0⟩⟩] := by decide

example : ∃ n, HallSymbolNotation.tryFromStr "-P 2a 2y (0 0 1)".toList = some n ∧
    (∀ f, SpaceGroup n f ↔ ReadGroup true .P (sampleRead.map (·.2)) ⟨0, 0, 1⟩ f) ∧
    List.Forall₂ (fun (u : Understood) (s : MatrixSymbol) => (∃ g, s.seitzMatrix = some g) ↔ u.Accepted)
        (asRead 0 none (sampleRead.map (·.2))) n.matrixSymbols :=
  text_read_exactly (minus := true) (l := .P) (ws := sampleRead) (tail := " (0 0 1)".toList)
    (by decide) (tabulatedTails_written (" (0 0 1)".toList, ⟨0, 0, 1⟩) (by decide))

/-- A refused symbol: a face diagonal in fourth place has no axis, so `2'` there denotes nothing. -/
example : ¬ (⟨⟨false, .N2, some .quote, .None, []⟩, readDirection 3 (some .N2) ⟨false, .N2, some .quote, .None, []⟩,
    readScrewAxis 3 ⟨false, .N2, some .quote, .None, []⟩⟩ : Understood).Accepted := by
  rintro ⟨⟨R, hR⟩, _⟩
  unfold HallRotation at hR
  rw [if_neg (by decide)] at hR
  obtain ⟨v, hv, _⟩ := hR
  cases hv

end Verif
