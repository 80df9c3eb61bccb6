import Verif.Proofs.TableLinks
import Verif.Proofs.SameType

/-! # The tables (C47-C53, C58): lookups, usability of every row, and which groups the rows describe -/

namespace Verif

set_option maxRecDepth 100000

/-- The Hall symbol is listed under the number code in one of the two tables. -/
def InTables (code hallSymbol : String) : Prop :=
  (∃ i, fullTable.getNumber i = some code ∧ fullTable.getHall i = some hallSymbol) ∨
  (∃ i, defaultTable.getNumber i = some code ∧ defaultTable.getHall i = some hallSymbol)

theorem inTables_row {code h : String} (hh : InTables code h) :
    ∃ row ∈ allRows, row.hall = h ∧ row.num = spaceGroupNumber code := by
  rcases hh with ⟨i, h1, h2⟩ | ⟨i, h1, h2⟩
  · have e1 := congrArg (fun l => l[i]?) rows_full_numbers
    have e2 := congrArg (fun l => l[i]?) rows_full_halls
    simp only [SpaceGroupTable.getNumber, SpaceGroupTable.getHall, fullTable] at h1 h2
    simp only [List.getElem?_map, h1, h2, Option.map_some] at e1 e2
    cases hr : (allRows.take 530)[i]? with
    | none => rw [hr] at e1; cases e1
    | some row =>
      rw [hr] at e1 e2
      simp only [Option.map_some, Option.some.injEq] at e1 e2
      exact ⟨row, List.mem_of_mem_take (List.mem_of_getElem? hr), e2, e1⟩
  · have e1 := congrArg (fun l => l[i]?) rows_default_numbers
    have e2 := congrArg (fun l => l[i]?) rows_default_halls
    simp only [SpaceGroupTable.getNumber, SpaceGroupTable.getHall, defaultTable] at h1 h2
    simp only [List.getElem?_map, h1, h2, Option.map_some] at e1 e2
    cases hk : defaultIndices[i]? with
    | none => rw [hk] at e1; cases e1
    | some k =>
      rw [hk] at e1 e2
      simp only [Option.map_some, Option.some.injEq] at e1 e2
      cases hr : allRows[k]? with
      | none => rw [hr] at e1; cases e1
      | some row =>
        rw [hr] at e1 e2
        simp only [Option.map_some, Option.some.injEq] at e1 e2
        exact ⟨row, List.mem_of_getElem? hr, e2, e1⟩

theorem tryFromStr_of_parse {s : List Char} {n : HallSymbolNotation} {r : List Char} (h : parseHallSymbol s = some (n, r)) :
    HallSymbolNotation.tryFromStr s = some n := by
  unfold HallSymbolNotation.tryFromStr; rw [h]; rfl

/-! ## C47 -/

/-- C47. The columns have the same length, and each of the three index lookups gives an entry exactly for indices below
it: 530 rows in the full table, 230 in the default table. -/
theorem index_lookups (t : SpaceGroupTable) (h : t = fullTable ∨ t = defaultTable) :
    (t.numbers.length = t.hms.length ∧ t.hms.length = t.halls.length) ∧
    (fullTable.halls.length = 530 ∧ defaultTable.halls.length = 230) ∧
    ∀ i : Nat, ((∃ s, t.getNumber i = some s) ↔ i < t.halls.length) ∧ ((∃ s, t.getHm i = some s) ↔ i < t.halls.length) ∧
      ((∃ s, t.getHall i = some s) ↔ i < t.halls.length) := by
  have hlen : (t.numbers.length = t.hms.length ∧ t.hms.length = t.halls.length) ∧
      (fullTable.halls.length = 530 ∧ defaultTable.halls.length = 230) := by
    refine ⟨?_, by decide +kernel⟩
    rcases h with rfl | rfl <;> decide +kernel
  refine ⟨hlen.1, hlen.2, fun i => ?_⟩
  have key : ∀ l : List String, (∃ s, l[i]? = some s) ↔ i < l.length := by
    intro l
    constructor
    · rintro ⟨s, hs⟩; exact (List.getElem?_eq_some_iff.1 hs).1
    · intro hi; exact ⟨l[i], List.getElem?_eq_getElem hi⟩
  refine ⟨?_, ?_, ?_⟩
  · rw [← hlen.1.2, ← hlen.1.1]; exact key t.numbers
  · rw [← hlen.1.2]; exact key t.hms
  · exact key t.halls

example : fullTable.getHall 529 = some "-I 4bd 2c 3" ∧ fullTable.getHall 530 = none := by decide +kernel

/-! ## C48, C49 -/

theorem positionOf_none {key : String} {l : List String} : positionOf key l = none ↔ key ∉ l := by
  induction l with
  | nil => simp [positionOf]
  | cons s l ih =>
    unfold positionOf
    split
    · rename_i h; simp [h]
    · rename_i h
      rw [Option.map_eq_none_iff, ih, List.mem_cons]
      constructor
      · rintro h1 (rfl | h2)
        · exact h rfl
        · exact h1 h2
      · intro h1 h2; exact h1 (.inr h2)

/-- The position found holds the key, and it is the first such position. -/
theorem positionOf_some {key : String} {l : List String} {i : Nat} :
    positionOf key l = some i ↔ l[i]? = some key ∧ ∀ j < i, l[j]? ≠ some key := by
  induction l generalizing i with
  | nil => simp [positionOf]
  | cons s l ih =>
    unfold positionOf
    split
    · rename_i h
      subst h
      cases i with
      | zero => simp
      | succ i =>
        simp only [Option.some.injEq]
        constructor
        · intro h; cases h
        · intro h; exact absurd (by simp) (h.2 0 (Nat.succ_pos _))
    · rename_i h
      cases i with
      | zero =>
        constructor
        · intro h'
          rw [Option.map_eq_some_iff] at h'
          obtain ⟨a, _, ha⟩ := h'
          omega
        · intro h'; simp at h'; exact absurd h' h
      | succ i =>
        rw [Option.map_eq_some_iff]
        constructor
        · rintro ⟨a, ha, e⟩
          obtain rfl : a = i := by omega
          obtain ⟨h1, h2⟩ := ih.1 ha
          refine ⟨by simpa using h1, ?_⟩
          intro j hj
          cases j with
          | zero => simpa using h
          | succ j => simpa using h2 j (by omega)
        · rintro ⟨h1, h2⟩
          refine ⟨i, ih.2 ⟨by simpa using h1, fun j hj => ?_⟩, rfl⟩
          have := h2 (j + 1) (by omega)
          simpa using this

/-- What the two searches compute: the number of the first row with that symbol, and nothing for symbols that do not
occur. -/
theorem lookup_spec (numbers keys : List String) (hlen : numbers.length = keys.length) (key : String) :
    ((match positionOf key keys with | some i => numbers[i]? | none => none) = none ↔ key ∉ keys) ∧
    ∀ i : Nat, keys[i]? = some key → (∀ j < i, keys[j]? ≠ some key) →
      (match positionOf key keys with | some i => numbers[i]? | none => none) = numbers[i]? := by
  constructor
  · constructor
    · intro h
      cases hp : positionOf key keys with
      | none => exact positionOf_none.1 hp
      | some i =>
        rw [hp] at h
        simp only [] at h
        have := (List.getElem?_eq_some_iff.1 (positionOf_some.1 hp).1).1
        rw [List.getElem?_eq_none_iff] at h
        omega
    · intro h; rw [positionOf_none.2 h]
  · intro i h1 h2
    rw [positionOf_some.2 ⟨h1, h2⟩]

theorem nodup_first {l : List String} (h : l.Nodup) {i : Nat} {s : String} (hi : l[i]? = some s) : ∀ j < i, l[j]? ≠ some s := by
  intro j hj e
  have h1 := List.getElem?_eq_some_iff.1 hi
  have h2 := List.getElem?_eq_some_iff.1 e
  obtain ⟨a, ha⟩ := h1
  obtain ⟨b, hb⟩ := h2
  have := (List.Nodup.getElem_inj_iff h).1 (ha.trans hb.symm)
  omega

theorem full_hm_nodup : Data.hmFull.Nodup := nodup_of_codes hmCodes_eq (by decide +kernel)

/-- C48, for the full table: looking up by the Hermann-Mauguin symbol of a row gives that row's number, and unknown
symbols give nothing (also in the default table). What is missing: the default table, see `default_hm_ambiguous`. -/
theorem hm_lookup_partial :
    (∀ i hm, fullTable.getHm i = some hm → fullTable.numberByHm hm = fullTable.getNumber i) ∧
    (∀ hm, fullTable.numberByHm hm = none ↔ hm ∉ fullTable.hms) ∧
    (∀ hm, defaultTable.numberByHm hm = none ↔ hm ∉ defaultTable.hms) ∧
    (∀ i hm, defaultTable.getHm i = some hm → (∀ j < i, defaultTable.getHm j ≠ some hm) →
      defaultTable.numberByHm hm = defaultTable.getNumber i) := by
  have hl := (index_lookups fullTable (.inl rfl)).1
  have hl' := (index_lookups defaultTable (.inr rfl)).1
  refine ⟨?_, ?_, ?_, ?_⟩
  · intro i hm h
    exact (lookup_spec fullTable.numbers fullTable.hms hl.1 hm).2 i h (nodup_first full_hm_nodup h)
  · intro hm; exact (lookup_spec fullTable.numbers fullTable.hms hl.1 hm).1
  · intro hm; exact (lookup_spec defaultTable.numbers defaultTable.hms hl'.1 hm).1
  · intro i hm h h'
    exact (lookup_spec defaultTable.numbers defaultTable.hms hl'.1 hm).2 i h h'

example : fullTable.getHm 297 = some "C m c m" ∧ fullTable.numberByHm "C m c m" = some "63" ∧
    fullTable.numberByHm "C m c" = none := by decide +kernel

/-- C48 is false for the default table: its Hermann-Mauguin symbols are cut at the first `/`, so that ten rows read `P 4`
and the lookup answers 83 for all of them. -/
theorem default_hm_ambiguous :
    (∀ i ∈ [82, 84, 122, 123, 124, 125, 126, 127, 128, 129], defaultTable.getHm i = some "P 4") ∧
    defaultTable.getNumber 129 = some "130:1" ∧ defaultTable.numberByHm "P 4" = some "83" ∧
    ¬ ∀ i hm, defaultTable.getHm i = some hm → defaultTable.numberByHm hm = defaultTable.getNumber i := by
  have h1 : defaultTable.getHm 129 = some "P 4" ∧ defaultTable.getNumber 129 = some "130:1" ∧
    defaultTable.numberByHm "P 4" = some "83" := by decide +kernel
  refine ⟨by decide +kernel, h1.2.1, h1.2.2, fun h => ?_⟩
  have := h 129 _ h1.1
  rw [h1.2.1, h1.2.2] at this
  revert this
  decide

theorem default_hall_nodup : Data.defaultHallName.Nodup := nodup_of_codes defaultHallCodes_eq (by decide +kernel)

/-- The rows of the full table whose Hall symbol is the same as that of an earlier row. -/
def repeatedHalls : List (Nat × Nat) := [(323, 321), (327, 325), (331, 329)]

theorem full_hall_first : ∀ i < 530, (∀ p ∈ repeatedHalls, p.1 ≠ i) →
    ∀ s, fullTable.getHall i = some s → ∀ j < i, fullTable.getHall j ≠ some s := by
  have key : quick (fun i j => repeatedHalls.any fun p => Nat.beq p.1 j && Nat.beq p.2 i) 531 hallCodes.zipIdx = true := by
    decide +kernel
  have key := quick_iff key
  rw [← hallCodes_eq] at key
  intro i hi hp s hs j hj e
  simp only [SpaceGroupTable.getHall, fullTable] at hs e
  have hl : ∀ (k : Nat) (s : String), Data.hallName[k]? = some s → ((Data.hallName.map textCode).zipIdx)[k]? = some (textCode s, k) := by
    intro k s h
    rw [List.getElem?_zipIdx, List.getElem?_map, h]
    simp
  have h1 := List.getElem?_eq_some_iff.1 (hl i s hs)
  have h2 := List.getElem?_eq_some_iff.1 (hl j s e)
  obtain ⟨b1, e1⟩ := h1
  obtain ⟨b2, e2⟩ := h2
  have := List.pairwise_iff_getElem.1 key j i b2 b1 hj
  rw [e1, e2] at this
  have := this rfl
  simp only [List.any_eq_true, Bool.and_eq_true] at this
  obtain ⟨p, hp', e3, -⟩ := this
  exact hp p hp' (Nat.eq_of_beq_eq_true e3)

/-- C49: looking up by the Hall symbol of a row gives that row's number, for both tables, except in three rows of the full
table; unknown symbols give nothing. What is missing: the three rows, see `hall_lookup_ambiguous`; there the space-group
number is still right. -/
theorem hall_lookup_partial :
    (∀ i s, defaultTable.getHall i = some s → defaultTable.numberByHall s = defaultTable.getNumber i) ∧
    (∀ i s, fullTable.getHall i = some s → (∀ p ∈ repeatedHalls, p.1 ≠ i) →
      fullTable.numberByHall s = fullTable.getNumber i) ∧
    (∀ i s, fullTable.getHall i = some s → ∃ code code', fullTable.getNumber i = some code ∧
      fullTable.numberByHall s = some code' ∧ spaceGroupNumber code' = spaceGroupNumber code) ∧
    (∀ s, fullTable.numberByHall s = none ↔ s ∉ fullTable.halls) ∧
    (∀ s, defaultTable.numberByHall s = none ↔ s ∉ defaultTable.halls) := by
  have hl := (index_lookups fullTable (.inl rfl))
  have hl' := (index_lookups defaultTable (.inr rfl)).1
  have hfull : ∀ i s, fullTable.getHall i = some s → (∀ p ∈ repeatedHalls, p.1 ≠ i) →
      fullTable.numberByHall s = fullTable.getNumber i := by
    intro i s h hp
    have hi : i < 530 := by
      have := ((hl.2.2 i).2.2).1 ⟨s, h⟩
      rwa [hl.2.1.1] at this
    exact (lookup_spec fullTable.numbers fullTable.halls (hl.1.1.trans hl.1.2) s).2 i h (full_hall_first i hi hp s h)
  refine ⟨?_, hfull, ?_, ?_, ?_⟩
  · intro i s h
    exact (lookup_spec defaultTable.numbers defaultTable.halls (hl'.1.trans hl'.2) s).2 i h (nodup_first default_hall_nodup h)
  · intro i s h
    have hi := ((hl.2.2 i).2.2).1 ⟨s, h⟩
    obtain ⟨code, hc⟩ := ((hl.2.2 i).1).2 hi
    by_cases hp : ∀ p ∈ repeatedHalls, p.1 ≠ i
    · exact ⟨code, code, hc, by rw [hfull i s h hp, hc], rfl⟩
    · have key : ∀ p ∈ repeatedHalls, ∃ s code code', fullTable.getHall p.1 = some s ∧ fullTable.getNumber p.1 = some code ∧
          fullTable.numberByHall s = some code' ∧ spaceGroupNumber code' = spaceGroupNumber code := by
        intro p hp
        simp only [repeatedHalls, List.mem_cons, List.not_mem_nil, or_false] at hp
        rcases hp with rfl | rfl | rfl
        · exact ⟨"C 2 2 -1bc", "68:1ba-c", "68:1", by decide +kernel⟩
        · exact ⟨"A 2 2 -1ac", "68:1-cba", "68:1cab", by decide +kernel⟩
        · exact ⟨"B 2 2 -1bc", "68:1a-cb", "68:1bca", by decide +kernel⟩
      push Not at hp
      obtain ⟨p, hp, rfl⟩ := hp
      obtain ⟨s', c, c', a1, a2, a3, a4⟩ := key p hp
      rw [h] at a1
      obtain rfl := Option.some.inj a1
      exact ⟨c, c', a2, a3, a4⟩
  · intro s; exact (lookup_spec fullTable.numbers fullTable.halls (hl.1.1.trans hl.1.2) s).1
  · intro s; exact (lookup_spec defaultTable.numbers defaultTable.halls (hl'.1.trans hl'.2) s).1

example : fullTable.getHall 297 = some "-C 2c 2" ∧ fullTable.numberByHall "-C 2c 2" = some "63" ∧
    fullTable.numberByHall "-C 2c 2 " = none := by decide +kernel

/-- C49 is false as stated: three rows repeat the Hall symbol of an earlier row, and their code is not the one found. -/
theorem hall_lookup_ambiguous :
    fullTable.getHall 323 = some "C 2 2 -1bc" ∧ fullTable.getNumber 323 = some "68:1ba-c" ∧
    fullTable.numberByHall "C 2 2 -1bc" = some "68:1" ∧
    (∀ p ∈ repeatedHalls, fullTable.getHall p.1 = fullTable.getHall p.2 ∧ fullTable.getNumber p.1 ≠ fullTable.getNumber p.2) := by
  decide +kernel

end Verif
