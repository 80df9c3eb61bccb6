import Verif.Props.Tables
import Verif.Props.Display

/-! # The groups of the table rows (C50, C53, C54, C58) -/

namespace Verif

set_option maxRecDepth 100000

theorem inTables_facts {code h : String} {n : HallSymbolNotation} (hh : InTables code h)
    (hn : HallSymbolNotation.tryFromStr h.toList = some n) :
    ∃ row ∈ allRows, row.hall = h ∧ row.num = spaceGroupNumber code ∧ ∃ n' L cc, RowFacts row n n' L cc := by
  obtain ⟨row, hr, rfl, he⟩ := inTables_row hh
  obtain ⟨m, n', L, cc, hf⟩ := row_facts hr
  have := tryFromStr_of_parse hf.parsed
  rw [hn] at this
  obtain rfl := Option.some.inj this
  exact ⟨row, hr, rfl, he, n', L, cc, hf⟩

/-! ## C50 -/

/-- C50. Every Hall symbol of both tables parses completely, its general positions are produced, it is consistent, and its
operations form a group with the crystal class of its space-group number: as many positions as the point group has
operations, and as many operations of each kind as the crystal class. -/
theorem tabulated_usable (code h : String) (hh : InTables code h) :
    ∃ n g cc, parseHallSymbol h.toList = some (n, []) ∧ HallSymbolNotation.tryFromStr h.toList = some n ∧
      HasPositions n g ∧ Consistent n ∧
      crystalClass (spaceGroupNumber code) = some cc ∧
      (PointGroup n).ncard = cc.order ∧ g.numOfGeneralPos = cc.order ∧
      ∀ t, {r ∈ PointGroup n | r.IsKind t}.ncard = cc.get t := by
  obtain ⟨row, hr, rfl, he⟩ := inTables_row hh
  obtain ⟨n, n', L, cc, hf⟩ := row_facts hr
  obtain ⟨g, hg⟩ := hf.positions
  refine ⟨n, g, cc, hf.parsed, tryFromStr_of_parse hf.parsed, hg, hf.described.consistent, he ▸ hf.cls, hf.order, ?_, hf.kinds⟩
  rw [(positions_form_group hg hf.described.consistent).2.2.2, hf.order]

/-- Every space-group number occurs in both tables. -/
theorem every_number : ∀ k, 1 ≤ k → k ≤ 230 →
    (∃ i code, fullTable.getNumber i = some code ∧ spaceGroupNumber code = k) ∧
    (∃ code, defaultTable.getNumber (k - 1) = some code ∧ spaceGroupNumber code = k) := by
  have h1 : (List.range 230).all (fun k => (Data.numberAndChoice.map spaceGroupNumber).any (Nat.beq (k + 1))) = true := by
    decide +kernel
  have h2 : Data.defaultNumberAndChoice.map spaceGroupNumber = (List.range 230).map (· + 1) := by decide +kernel
  intro k hk1 hk2
  constructor
  · have := List.all_eq_true.1 h1 (k - 1) (List.mem_range.2 (by omega))
    rw [List.any_eq_true] at this
    obtain ⟨a, ha, e⟩ := this
    obtain ⟨code, hc, rfl⟩ := List.mem_map.1 ha
    obtain ⟨i, hi⟩ := List.mem_iff_getElem?.1 hc
    exact ⟨i, code, hi, by have := Nat.eq_of_beq_eq_true e; omega⟩
  · have := congrArg (fun l => l[k - 1]?) h2
    simp only [List.getElem?_map, List.getElem?_range (show k - 1 < 230 by omega), Option.map_some,
      Option.map_eq_some_iff] at this
    obtain ⟨code, hc, e⟩ := this
    exact ⟨code, hc, by omega⟩

example : InTables "63" "-C 2c 2" ∧ InTables "24" "I 2ac 2bc" ∧ InTables "24" "I 2ac 2ab" :=
  ⟨.inl ⟨297, by decide +kernel⟩, .inl ⟨123, by decide +kernel⟩, .inr ⟨23, by decide +kernel⟩⟩

/-! ## C53, C58 -/

/-- Rows with equal keys have the same number, except for one. -/
theorem keys_ok : quick (fun r s : Row => Nat.beq r.num s.num || (Nat.beq r.num 23 && Nat.beq s.num 24 && r.hall == "I 2 2" &&
    s.hall == "I 2ac 2bc")) 546 (allRows.map fun r => (r.key, r)) = true := by decide +kernel

/-- Rows with the same number are compared with the same row, except for one. -/
theorem refs_ok : quick (fun r s : Row => ! Nat.beq r.num s.num || r.ref == s.ref || r.hall == "I 2ac 2bc" || s.hall == "I 2ac 2bc")
    546 (allRows.map fun r => (167 * r.num % 233, r)) = true := by decide +kernel

theorem rows_pairwise : allRows.Pairwise fun r s =>
    (r.num = s.num → r.ref = s.ref ∨ r.hall = "I 2ac 2bc" ∨ s.hall = "I 2ac 2bc") ∧
    (r.num ≠ s.num → r.key ≠ s.key ∨ (r.num = 23 ∧ s.num = 24 ∧ s.hall = "I 2ac 2bc")) := by
  have h1 := quick_iff keys_ok
  have h2 := quick_iff refs_ok
  rw [List.pairwise_map] at h1 h2
  refine (h1.and h2).imp ?_
  rintro r s ⟨h1, h2⟩
  constructor
  · intro e
    have := h2 (by rw [e])
    simp only [Bool.or_eq_true, Bool.not_eq_true', beq_iff_eq, e, Nat.beq_refl] at this
    rcases this with ((h | h) | h) | h
    · cases h
    · exact .inl h
    · exact .inr (.inl h)
    · exact .inr (.inr h)
  · intro e
    by_cases hk : r.key = s.key
    · have := h1 hk
      simp only [Bool.or_eq_true, Bool.and_eq_true, beq_iff_eq] at this
      rcases this with h | ⟨⟨⟨h1, h2⟩, _⟩, h3⟩
      · exact absurd (Nat.eq_of_beq_eq_true h) e
      · exact .inr ⟨Nat.eq_of_beq_eq_true h1, Nat.eq_of_beq_eq_true h2, h3⟩
    · exact .inl hk

theorem rows_forall : ∀ r ∈ allRows, ∀ s ∈ allRows,
    (r.num = s.num → r.ref = s.ref ∨ r.hall = "I 2ac 2bc" ∨ s.hall = "I 2ac 2bc") ∧
    (r.num ≠ s.num → r.key ≠ s.key ∨ (r.num = 23 ∧ s.num = 24 ∧ s.hall = "I 2ac 2bc") ∨
      (s.num = 23 ∧ r.num = 24 ∧ r.hall = "I 2ac 2bc")) := by
  intro r hr s hs
  have hsym : Std.Symm fun r s : Row =>
    (r.num = s.num → r.ref = s.ref ∨ r.hall = "I 2ac 2bc" ∨ s.hall = "I 2ac 2bc") ∧
    (r.num ≠ s.num → r.key ≠ s.key ∨ (r.num = 23 ∧ s.num = 24 ∧ s.hall = "I 2ac 2bc") ∨
      (s.num = 23 ∧ r.num = 24 ∧ r.hall = "I 2ac 2bc")) := by
    refine ⟨fun r s h => ⟨fun e => ?_, fun e => ?_⟩⟩
    · rcases h.1 e.symm with h | h | h
      · exact .inl h.symm
      · exact .inr (.inr h)
      · exact .inr (.inl h)
    · rcases h.2 (Ne.symm e) with h | h | h
      · exact .inl h.symm
      · exact .inr (.inr h)
      · exact .inr (.inl h)
  refine @List.Pairwise.forall_of_forall _ _ _ hsym ?_ (rows_pairwise.imp ?_) r hr s hs
  · intro r _
    exact ⟨fun _ => .inl rfl, fun e => absurd rfl e⟩
  · intro r s h
    exact ⟨h.1, fun e => (h.2 e).elim .inl fun h => .inr (.inl h)⟩

/-- C53, except for one row: symbols listed under different space-group numbers never describe the same group up to a
change of origin. What is missing: the symbol `I 2ac 2bc`, which the full table lists under 24, describes number 23, see
`wrong_row_24`. -/
theorem numbers_differ_partial {code code' h h' : String} {n n' : HallSymbolNotation} (hh : InTables code h)
    (hh' : InTables code' h') (hn : HallSymbolNotation.tryFromStr h.toList = some n)
    (hn' : HallSymbolNotation.tryFromStr h'.toList = some n') (he : h ≠ "I 2ac 2bc") (he' : h' ≠ "I 2ac 2bc")
    (hne : spaceGroupNumber code ≠ spaceGroupNumber code') : ¬ SameUpToOrigin n n' := by
  intro hs
  obtain ⟨row, hr, rfl, e1, _, L, cc, hf⟩ := inTables_facts hh hn
  obtain ⟨row', hr', rfl, e1', _, L', cc', hf'⟩ := inTables_facts hh' hn'
  have key := groupKey_invariant functionals_good hf.described hf'.described hs
  rw [hf.key, hf'.key] at key
  rcases (rows_forall row hr row' hr').2 (by rw [e1, e1']; exact hne) with h | h | h
  · exact h key
  · exact he' h.2.2
  · exact he h.2.2

/-- The one exception also differs from every row that is not listed under 23 or 24. -/
theorem numbers_differ_24 {code h : String} {n n' : HallSymbolNotation} (hh : InTables code h)
    (hn : HallSymbolNotation.tryFromStr h.toList = some n)
    (hn' : HallSymbolNotation.tryFromStr "I 2ac 2bc".toList = some n')
    (hne : spaceGroupNumber code ≠ 23 ∧ spaceGroupNumber code ≠ 24) : ¬ SameUpToOrigin n n' := by
  intro hs
  obtain ⟨row, hr, rfl, e1, _, L, cc, hf⟩ := inTables_facts hh hn
  have h24 : InTables "24" "I 2ac 2bc" := .inl ⟨123, by decide +kernel⟩
  obtain ⟨row', hr', e0, e1', _, L', cc', hf'⟩ := inTables_facts h24 hn'
  have e2 : spaceGroupNumber "24" = 24 := by decide +kernel
  have key := groupKey_invariant functionals_good hf.described hf'.described hs
  rw [hf.key, hf'.key] at key
  rcases (rows_forall row hr row' hr').2 (by rw [e1, e1', e2]; exact hne.2) with h | h | h
  · exact h key
  · exact hne.1 (e1 ▸ h.1)
  · exact hne.2 (e1 ▸ h.2.1)

/-- C53 is false as stated: the full table lists `I 2ac 2bc` under 24 and `I 2 2` under 23, and the two groups agree after a
change of origin. -/
theorem wrong_row_24 : fullTable.getNumber 123 = some "24" ∧ fullTable.getHall 123 = some "I 2ac 2bc" ∧
    fullTable.getNumber 122 = some "23" ∧ fullTable.getHall 122 = some "I 2 2" ∧
    SameUpToOrigin (hall "I 2 2") (hall "I 2ac 2bc") := by
  have h : fullTable.getNumber 123 = some "24" ∧ fullTable.getHall 123 = some "I 2ac 2bc" ∧
    fullTable.getNumber 122 = some "23" ∧ fullTable.getHall 122 = some "I 2 2" := by decide +kernel
  refine ⟨h.1, h.2.1, h.2.2.1, h.2.2.2, ?_⟩
  have hp : otherPairs.head? = some ⟨"I 2 2", "I 2ac 2bc", ⟨⟨1, 0, 0, 0, 1, 0, 0, 0, 1⟩, ⟨0, 3, 3⟩, 1⟩,
      ⟨⟨1, 0, 0, 0, 1, 0, 0, 0, 1⟩, ⟨0, -3, -3⟩, 1⟩⟩ := rfl
  obtain ⟨n, n', h1, h2, h3, -⟩ := pair_facts (.inr (List.mem_of_mem_head? hp))
  have e1 : hall "I 2 2" = n := by
    have := tryFromStr_of_parse h1
    exact (Option.some.inj ((show HallSymbolNotation.tryFromStr "I 2 2".toList = some (hall "I 2 2") by decide +kernel).symm.trans this))
  have e2 : hall "I 2ac 2bc" = n' := by
    have := tryFromStr_of_parse h2
    exact (Option.some.inj ((show HallSymbolNotation.tryFromStr "I 2ac 2bc".toList = some (hall "I 2ac 2bc") by decide +kernel).symm.trans this))
  rw [e1, e2]
  exact h3

example : ∃ n n', HallSymbolNotation.tryFromStr "-C 2c 2".toList = some n ∧
    HallSymbolNotation.tryFromStr "-C 2bc 2".toList = some n' ∧ InTables "63" "-C 2c 2" ∧ InTables "64" "-C 2bc 2" :=
  ⟨hall "-C 2c 2", hall "-C 2bc 2", by decide +kernel, by decide +kernel, .inl ⟨297, by decide +kernel⟩,
    .inl ⟨303, by decide +kernel⟩⟩

/-- C58, except for one row: all symbols listed under the same space-group number, in either table, describe the same type
of group, in different settings. What is missing: the symbol `I 2ac 2bc` listed under 24. -/
theorem same_number_same_type_partial {code code' h h' : String} {n n' : HallSymbolNotation} (hh : InTables code h)
    (hh' : InTables code' h') (hn : HallSymbolNotation.tryFromStr h.toList = some n)
    (hn' : HallSymbolNotation.tryFromStr h'.toList = some n') (he : h ≠ "I 2ac 2bc") (he' : h' ≠ "I 2ac 2bc")
    (heq : spaceGroupNumber code = spaceGroupNumber code') : SameType n n' := by
  obtain ⟨row, hr, rfl, e1, m, L, cc, hf⟩ := inTables_facts hh hn
  obtain ⟨row', hr', rfl, e1', m', L', cc', hf'⟩ := inTables_facts hh' hn'
  rcases (rows_forall row hr row' hr').1 (by rw [e1, e1', heq]) with h | h | h
  · have e := hf.parsedRef
    rw [h, hf'.parsedRef] at e
    simp only [Option.some.injEq, Prod.mk.injEq, and_true] at e
    subst e
    exact hf.same.symm.trans hf'.same
  · exact absurd h he
  · exact absurd h he'

example : ∃ n n', HallSymbolNotation.tryFromStr "-R 3".toList = some n ∧
    HallSymbolNotation.tryFromStr "-P 3*".toList = some n' ∧ InTables "148:H" "-R 3" ∧ InTables "148:R" "-P 3*" ∧
    spaceGroupNumber "148:H" = spaceGroupNumber "148:R" :=
  ⟨hall "-R 3", hall "-P 3*", by decide +kernel, by decide +kernel, .inl ⟨435, by decide +kernel⟩,
    .inl ⟨436, by decide +kernel⟩, by decide +kernel⟩

/-! ## C54 -/

/-- The space-group numbers whose positions cannot be displayed. -/
def notShown : List Nat :=
  [149, 151, 153, 157, 159, 162, 163, 177, 178, 179, 180, 181, 182, 183, 184, 185, 186, 187, 188, 189, 190, 191, 192, 193, 194]

theorem shown_iff : ∀ row ∈ allRows, row.shown = true ↔ row.num ∉ notShown := by
  have : allRows.all (fun r => r.shown == ! notShown.any (Nat.beq r.num)) = true := by decide +kernel
  intro row hr
  have h := List.all_eq_true.1 this row hr
  rw [beq_iff_eq] at h
  rw [h, Bool.not_eq_true', List.any_eq_false]
  constructor
  · intro h' hm
    exact h' _ hm (Nat.beq_refl _)
  · intro h' x hx e
    exact h' (Nat.eq_of_beq_eq_true e ▸ hx)

theorem mapM_ok_iff {α β : Type} {f : α → Except Panic β} {l : List α} :
    (∃ out, l.mapM f = .ok out) ↔ ∀ a ∈ l, ∃ b, f a = .ok b := by
  induction l with
  | nil => exact ⟨fun _ _ h => (by cases h), fun _ => ⟨[], rfl⟩⟩
  | cons a l ih =>
    rw [List.mapM_cons]
    simp only [List.mem_cons, forall_eq_or_imp, ← ih]
    cases ha : f a with
    | error e =>
      constructor
      · rintro ⟨_, h⟩; cases h
      · rintro ⟨⟨_, h⟩, _⟩; cases h
    | ok b =>
      cases hl : l.mapM f with
      | error e =>
        constructor
        · rintro ⟨_, h⟩; cases h
        · rintro ⟨_, _, h⟩; cases h
      | ok bs => exact ⟨fun _ => ⟨⟨b, rfl⟩, ⟨bs, rfl⟩⟩, fun _ => ⟨b :: bs, rfl⟩⟩

theorem display_ok_iff {n : HallSymbolNotation} {g : GeneralPositions} (hg : HasPositions n g)
    (hfit : ∀ r ∈ PointGroup n, FitsFirstSymbol n r) :
    (∃ out, g.display = .ok out) ↔ ∀ r ∈ PointGroup n, r ∉ badAxes := by
  have hr := rotations_are_point_group hg
  have hop : ∀ m ∈ g.corePositionSet, ∀ v : V3, (∃ d, (m.addV v).display = .ok d) ↔ m.rot ∉ badAxes := by
    intro m hm v
    have hf : FitsFirstSymbol n m.rot := hfit _ (by rw [hr]; exact ⟨m, hm, rfl⟩)
    obtain ⟨t, ht, -⟩ := jones_read (m.addV v) (fits_small (r := (m.addV v).rot) hf)
    rw [← fits_eigenvector hf (m.addV v).tr (m.addV v).bot (m.addV v).w]
    unfold M4.display
    rw [ht]
    change (∃ d, (do let e ← M4.eigenvector (m.addV v); pure (t, e)) = _) ↔ ∃ w, M4.eigenvector (m.addV v) = .ok w
    cases M4.eigenvector (m.addV v) with
    | error e => exact ⟨fun ⟨_, h⟩ => (by cases h), fun ⟨_, h⟩ => (by cases h)⟩
    | ok e => exact ⟨fun _ => ⟨_, rfl⟩, fun _ => ⟨_, rfl⟩⟩
  have hz : g.deriveFullSets.zip g.latticeTranslations
      = g.latticeTranslations.map fun v => (g.corePositionSet.map fun m => m.addV v, v) := by
    unfold GeneralPositions.deriveFullSets
    rw [List.zip_eq_zipWith, List.zipWith_map_left, List.zipWith_self]
  have hv : g.latticeTranslations ≠ [] := by
    obtain ⟨k, h⟩ := hg
    obtain ⟨st, hF, hp, hl⟩ := final_of_ok h
    rw [hl]
    obtain ⟨⟨b, c⟩, _, _⟩ := n
    cases c <;> exact List.cons_ne_nil _ _
  have hset : ∀ v : V3, (∃ d, (do
      let ds ← (g.corePositionSet.map fun m => m.addV v).mapM M4.display
      return (GeneralPositions.heading v, ds) : Except Panic _) = .ok d) ↔ ∀ m ∈ g.corePositionSet, m.rot ∉ badAxes := by
    intro v
    have : (∃ d, (g.corePositionSet.map fun m => m.addV v).mapM M4.display = .ok d) ↔
        ∀ m ∈ g.corePositionSet, m.rot ∉ badAxes := by
      rw [mapM_ok_iff]
      simp only [List.mem_map, forall_exists_index, and_imp, forall_apply_eq_imp_iff₂]
      exact forall₂_congr fun m hm => hop m hm v
    rw [← this]
    cases (g.corePositionSet.map fun m => m.addV v).mapM M4.display with
    | error e => exact ⟨fun ⟨_, h⟩ => (by cases h), fun ⟨_, h⟩ => (by cases h)⟩
    | ok e => exact ⟨fun _ => ⟨_, rfl⟩, fun _ => ⟨_, rfl⟩⟩
  unfold GeneralPositions.display
  rw [hz, mapM_ok_iff, hr]
  simp only [List.mem_map, forall_exists_index, and_imp, forall_apply_eq_imp_iff₂]
  constructor
  · rintro h r ⟨m, hm, rfl⟩
    obtain ⟨v, hv⟩ := List.exists_mem_of_ne_nil _ hv
    exact (hset v).1 (h v hv) m hm
  · intro h v _
    exact (hset v).2 fun m hm => h _ ⟨m, hm, rfl⟩

/-- C54, in part: the coordinate listing of the positions of a tabulated Hall symbol never panics, but `Display` does so for
the numbers in `notShown` (and only for them). What is missing: `Display` for those numbers. -/
theorem tabulated_display_partial {code h : String} {n : HallSymbolNotation} {g : GeneralPositions} (hh : InTables code h)
    (hn : HallSymbolNotation.tryFromStr h.toList = some n) (hg : HasPositions n g) :
    (∃ ts, g.textFormat = .ok ts) ∧ (∃ ts, g.pureTxt = .ok ts) ∧
    ((∃ out, g.display = .ok out) ↔ spaceGroupNumber code ∉ notShown) := by
  obtain ⟨row, hr, rfl, e1, _, L, cc, hf⟩ := inTables_facts hh hn
  have hsmall : ∀ m ∈ g.corePositionSet, m.rot.Small := by
    intro m hm
    refine fits_small (hf.fits m.rot ?_)
    rw [rotations_are_point_group hg]
    exact ⟨m, hm, rfl⟩
  obtain ⟨ts, hts⟩ := text_listing_total g hsmall
  refine ⟨⟨_, ((text_listing g).2 ts hts).2⟩, ⟨ts, hts⟩, ?_⟩
  rw [display_ok_iff hg hf.fits, ← hf.shown, shown_iff row hr, e1]

/-- C54, in part, for the complete text: `Display` of the positions of a tabulated Hall symbol returns a text exactly when the
number is not in `notShown`. What is missing: `Display` for those numbers. -/
theorem tabulated_display_text_partial {code h : String} {n : HallSymbolNotation} {g : GeneralPositions} (hh : InTables code h)
    (hn : HallSymbolNotation.tryFromStr h.toList = some n) (hg : HasPositions n g) :
    (∃ s, g.displayText = .ok s) ↔ spaceGroupNumber code ∉ notShown :=
  g.displayText_ok.trans (tabulated_display_partial hh hn hg).2.2

/-- C54 is false as stated: the positions of `P 3 2` (number 149) cannot be displayed; both tables list it. -/
theorem display_panics : InTables "149" "P 3 2" ∧
    ∃ g, HasPositions (hall "P 3 2") g ∧ g.display = .error .noEigenvector := by
  refine ⟨.inl ⟨437, by decide +kernel⟩, ?_⟩
  have h : (match (hall "P 3 2").generalPositions 10 with
      | some (.ok g) => (match g.display with | .error .noEigenvector => true | _ => false)
      | _ => false) = true := by decide +kernel
  split at h
  · rename_i g hg
    refine ⟨g, ⟨10, hg⟩, ?_⟩
    split at h
    · assumption
    · cases h
  · cases h

end Verif
