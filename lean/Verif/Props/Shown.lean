import Verif.Props.TableGroups
import Verif.Props.Site
import Verif.Props.Relabel

/-! # When the positions can be displayed, for every notation (C106) -/

namespace Verif

theorem M3.Rhombohedral.cubic {r : M3} (h : r.Rhombohedral) : r.Cubic := h.1

/-- A 2-fold rotation or a mirror whose axis is [210] or [120]. -/
def OnLongAxis (m : M4) : Prop :=
  (m.rotationType = some .N2 ∨ m.rotationType = some .M) ∧
    (m.rotationPart.IsAxis ⟨2, 1, 0⟩ ∨ m.rotationPart.IsAxis ⟨1, 2, 0⟩)

instance (r : M3) (v : V3) : Decidable (r.IsAxis v) := by unfold M3.IsAxis; infer_instance

instance (m : M4) : Decidable (OnLongAxis m) := by unfold OnLongAxis; infer_instance

theorem badAxes_iff {r : M3} (h : r ∈ cubicList ∨ r ∈ hexList) : r ∈ badAxes ↔
    (M4.rotationType ⟨r, V3.zero, V3.zero, 1⟩ = some .N2 ∨ M4.rotationType ⟨r, V3.zero, V3.zero, 1⟩ = some .M) ∧
      (r.IsAxis ⟨2, 1, 0⟩ ∨ r.IsAxis ⟨1, 2, 0⟩) := by
  have k : ∀ r ∈ cubicList ++ hexList, r ∈ badAxes ↔
    (M4.rotationType ⟨r, V3.zero, V3.zero, 1⟩ = some .N2 ∨ M4.rotationType ⟨r, V3.zero, V3.zero, 1⟩ = some .M) ∧
      (r.IsAxis ⟨2, 1, 0⟩ ∨ r.IsAxis ⟨1, 2, 0⟩) := by decide +kernel
  exact k r (List.mem_append.2 h)

/-- C106. For every notation with general positions: `Display` gives a text exactly when no listed operation is a 2-fold
rotation or a mirror about the axis [210] or [120]; otherwise it panics. -/
theorem display_iff_axes {n : HallSymbolNotation} {g : GeneralPositions} (hg : HasPositions n g) :
    (∃ s, g.displayText = .ok s) ↔ ¬ ∃ m ∈ g.corePositionSet, OnLongAxis m := by
  obtain ⟨hpg, haff, -⟩ := core_rotations hg
  have hfit := pointGroup_fits_cell hg
  rw [g.displayText_ok, display_ok_iff hg hfit]
  have key : ∀ m ∈ g.corePositionSet, m.rot ∈ badAxes ↔ OnLongAxis m := by
    intro m hm
    rw [badAxes_iff (fits_holohedry (hfit m.rot ((hpg _).2 ⟨m, hm, rfl⟩))), ← rotationType_rot (haff m hm)]
    rfl
  constructor
  · rintro h ⟨m, hm, hb⟩
    exact h m.rot ((hpg _).2 ⟨m, hm, rfl⟩) ((key m hm).2 hb)
  · intro h r hr hb
    obtain ⟨m, hm, rfl⟩ := (hpg r).1 hr
    exact h ⟨m, hm, (key m hm).1 hb⟩

theorem notHexagonal_cubic {n : HallSymbolNotation} (h : NotHexagonal n) {r : M3} (hr : FitsFirstSymbol n r) : r ∈ cubicList := by
  obtain ⟨l, ms, o⟩ := n
  match ms with
  | [] => exact hr.elim
  | ⟨sg, f, sub, d, a, t⟩ :: ms =>
    obtain ⟨h1, h2⟩ := h _ rfl
    cases f <;> cases d <;> first
      | (exact absurd rfl h1)
      | (exact (cubic_iff_mem r).1 (M3.Rhombohedral.cubic hr))
      | (exact (cubic_iff_mem r).1 hr)
      | (exact absurd (h2 rfl) (fun e => NFoldDiag.noConfusion e))

/-- C106. Unless the first symbol is a 6, or a 3 about a cell edge, the positions can be displayed. -/
theorem display_total {n : HallSymbolNotation} {g : GeneralPositions} (hg : HasPositions n g) (h : NotHexagonal n) :
    ∃ s, g.displayText = .ok s := by
  have hfit := pointGroup_fits_cell hg
  rw [g.displayText_ok, display_ok_iff hg hfit]
  intro r hr
  have k : ∀ r ∈ cubicList, r ∉ badAxes := by decide +kernel
  exact k r (notHexagonal_cubic h (hfit r hr))

/-- A symbol of neither table with a cubic cell. -/
example : HasPositions (hall "P 4xu") (positionsOf "P 4xu") ∧ ∃ s, (positionsOf "P 4xu").displayText = .ok s := by
  have hg : HasPositions (hall "P 4xu") (positionsOf "P 4xu") := positionsOf_spec (by decide +kernel)
  have hh : NotHexagonal (hall "P 4xu") := by
    have e : (hall "P 4xu").matrixSymbols.head? = some ((hall "P 4xu").matrixSymbols.headD ⟨false, .N1, .None, .None, .Z, none⟩) := by
      decide +kernel
    have e2 : ((hall "P 4xu").matrixSymbols.headD ⟨false, .N1, .None, .None, .Z, none⟩).nfoldBody = .N4 := by decide +kernel
    intro s hs
    rw [e] at hs
    obtain rfl := Option.some.inj hs
    rw [e2]
    exact ⟨by decide, fun h => by cases h⟩
  exact ⟨hg, display_total hg hh⟩

/-- The 2-folds of `P 3 2 (0 0 1)` are about [210] and alike: no text; those of `P 3 2" (0 0 1)` are not. -/
example : HasPositions (hall "P 3 2 (0 0 1)") (positionsOf "P 3 2 (0 0 1)") ∧
    (¬ ∃ s, (positionsOf "P 3 2 (0 0 1)").displayText = .ok s) ∧
    HasPositions (hall "P 3 2\" (0 0 1)") (positionsOf "P 3 2\" (0 0 1)") ∧
    ∃ s, (positionsOf "P 3 2\" (0 0 1)").displayText = .ok s := by
  have h1 : HasPositions (hall "P 3 2 (0 0 1)") (positionsOf "P 3 2 (0 0 1)") := positionsOf_spec (by decide +kernel)
  have h2 : HasPositions (hall "P 3 2\" (0 0 1)") (positionsOf "P 3 2\" (0 0 1)") := positionsOf_spec (by decide +kernel)
  have k1 : (positionsOf "P 3 2 (0 0 1)").corePositionSet.any (fun m => decide (OnLongAxis m)) = true := by decide +kernel
  have k2 : (positionsOf "P 3 2\" (0 0 1)").corePositionSet.any (fun m => decide (OnLongAxis m)) = false := by decide +kernel
  refine ⟨h1, fun h => ?_, h2, (display_iff_axes h2).2 ?_⟩
  · obtain ⟨m, hm, e⟩ := List.any_eq_true.1 k1
    exact (display_iff_axes h1).1 h ⟨m, hm, of_decide_eq_true e⟩
  · rintro ⟨m, hm, e⟩
    exact absurd (List.any_eq_false.1 k2 m hm) (by simpa using e)

end Verif
