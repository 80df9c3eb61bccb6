import Verif.Rows.AllTypes
import Verif.Props.TableGroups

/-! # Space-group numbers and group types (C53, C58) -/

namespace Verif

/-- C53 and C58, except for one row: two symbols of the tables describe groups of the same type (an orientation-preserving
change of basis and origin turns one into the other) exactly when they are listed under the same space-group number. What
is missing: the symbol `I 2ac 2bc`, listed under 24, see `wrong_type_24`. -/
theorem type_iff_number_partial {code code' h h' : String} {n n' : HallSymbolNotation} (hh : InTables code h)
    (hh' : InTables code' h') (hn : HallSymbolNotation.tryFromStr h.toList = some n)
    (hn' : HallSymbolNotation.tryFromStr h'.toList = some n') (he : h ≠ "I 2ac 2bc") (he' : h' ≠ "I 2ac 2bc") :
    SameType n n' ↔ spaceGroupNumber code = spaceGroupNumber code' := by
  refine ⟨fun hs => ?_, same_number_same_type_partial hh hh' hn hn' he he'⟩
  obtain ⟨row, hr, rfl, e1, _, L, cc, hf⟩ := inTables_facts hh hn
  obtain ⟨row', hr', rfl, e1', _, L', cc', hf'⟩ := inTables_facts hh' hn'
  by_contra hne
  exact rows_differ hr hr' (by rw [e1, e1']; exact hne) he he' hf hf' hs

example : ∃ n n', HallSymbolNotation.tryFromStr "P 4w".toList = some n ∧
    HallSymbolNotation.tryFromStr "P 4cw".toList = some n' ∧ InTables "76" "P 4w" ∧ InTables "78" "P 4cw" ∧ ¬ SameType n n' := by
  have h1 : InTables "76" "P 4w" := .inl ⟨349, by decide +kernel⟩
  have h2 : InTables "78" "P 4cw" := .inl ⟨351, by decide +kernel⟩
  have p1 : HallSymbolNotation.tryFromStr "P 4w".toList = some (hall "P 4w") := by decide +kernel
  have p2 : HallSymbolNotation.tryFromStr "P 4cw".toList = some (hall "P 4cw") := by decide +kernel
  refine ⟨_, _, p1, p2, h1, h2, fun h => ?_⟩
  have := (type_iff_number_partial h1 h2 p1 p2 (by decide) (by decide)).1 h
  revert this
  decide +kernel

/-- The group of `I 2ac 2bc` is of the type numbered 23: among all rows (but itself) it agrees with those listed under 23,
and with no other. -/
theorem row_24_is_23 {code h : String} {n : HallSymbolNotation} (hh : InTables code h)
    (hn : HallSymbolNotation.tryFromStr h.toList = some n) (he : h ≠ "I 2ac 2bc") :
    SameType n (hall "I 2ac 2bc") ↔ spaceGroupNumber code = 23 := by
  have p : HallSymbolNotation.tryFromStr "I 2 2".toList = some (hall "I 2 2") := by decide +kernel
  have h23 : InTables "23" "I 2 2" := .inl ⟨122, by decide +kernel⟩
  have hs := wrong_row_24.2.2.2.2.sameType
  have key := type_iff_number_partial hh h23 hn p he (by decide)
  have e : spaceGroupNumber "23" = 23 := by decide +kernel
  rw [e] at key
  rw [← key]
  exact ⟨fun h => h.trans hs.symm, fun h => h.trans hs⟩

/-- C53 and C58 are false as stated: `I 2ac 2bc` and `I 2ac 2ab` are both listed under 24 but are not of the same type, and
`I 2ac 2bc` is of the same type as `I 2 2`, listed under 23. -/
theorem wrong_type_24 : InTables "24" "I 2ac 2bc" ∧ InTables "24" "I 2ac 2ab" ∧ InTables "23" "I 2 2" ∧
    ¬ SameType (hall "I 2ac 2ab") (hall "I 2ac 2bc") ∧ SameType (hall "I 2 2") (hall "I 2ac 2bc") := by
  have p : HallSymbolNotation.tryFromStr "I 2ac 2ab".toList = some (hall "I 2ac 2ab") := by decide +kernel
  have h24 : InTables "24" "I 2ac 2ab" := .inr ⟨23, by decide +kernel⟩
  refine ⟨.inl ⟨123, by decide +kernel⟩, h24, .inl ⟨122, by decide +kernel⟩, ?_, wrong_row_24.2.2.2.2.sameType⟩
  rw [row_24_is_23 h24 p (by decide)]
  decide +kernel

/-- The default table names every type once: its rows describe pairwise different types. -/
theorem default_types_distinct {i j : Nat} {h h' : String} {n n' : HallSymbolNotation} (hi : defaultTable.getHall i = some h)
    (hj : defaultTable.getHall j = some h') (hn : HallSymbolNotation.tryFromStr h.toList = some n)
    (hn' : HallSymbolNotation.tryFromStr h'.toList = some n') : SameType n n' ↔ i = j := by
  have hlen : ∀ {i : Nat} {h : String}, defaultTable.getHall i = some h → i < 230 ∧ h ≠ "I 2ac 2bc" := by
    have h1 : Data.defaultHallName.length = 230 := by decide +kernel
    have h2 : Data.defaultHallName.all (fun h => ! (h == "I 2ac 2bc")) = true := by decide +kernel
    intro i h hi
    have hm : h ∈ Data.defaultHallName := List.mem_of_getElem? hi
    constructor
    · rw [← h1]
      exact (List.getElem?_eq_some_iff.1 hi).1
    · have := List.all_eq_true.1 h2 h hm
      simpa using this
  obtain ⟨l1, e1⟩ := hlen hi
  obtain ⟨l2, e2⟩ := hlen hj
  obtain ⟨c1, k1, k1'⟩ := (every_number (i + 1) (by omega) (by omega)).2
  obtain ⟨c2, k2, k2'⟩ := (every_number (j + 1) (by omega) (by omega)).2
  rw [Nat.add_sub_cancel] at k1 k2
  rw [type_iff_number_partial (.inr ⟨i, k1, hi⟩) (.inr ⟨j, k2, hj⟩) hn hn' e1 e2, k1', k2']
  omega

example : defaultTable.getHall 0 = some "P 1" ∧ defaultTable.getHall 229 = some "-I 4bd 2c 3" := by decide +kernel

end Verif
