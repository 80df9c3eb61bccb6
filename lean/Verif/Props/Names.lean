import Verif.Props.TableGroups
import Verif.Rows.AllNames

/-! # The Hermann-Mauguin names of the tables (C63, C64, C65) -/

namespace Verif.HM

set_option maxRecDepth 100000

theorem names_halls : allNames.map NameRow.hall = allRows.map Row.hall := by decide +kernel

theorem names_full : (allNames.take 530).map NameRow.name = Data.hmFull := by decide +kernel

theorem names_good : allNames.map NameRow.ok = (List.range 545).map fun i => ! Nat.beq i 366 := by decide +kernel

/-- What is known of a row with its name. -/
theorem nameRow_facts {i : Nat} {nr : NameRow} (hi : allNames[i]? = some nr) : ∃ r n nm L n' cc,
    allRows[i]? = some r ∧ r ∈ allRows ∧ r.hall = nr.hall ∧ RowFacts r n n' L cc ∧ NameFacts nr n nm ∧ (nr.ok = true ↔ i ≠ 366) := by
  have e := congrArg (fun l => l[i]?) names_halls
  have g := congrArg (fun l => l[i]?) names_good
  simp only [List.getElem?_map, hi, Option.map_some] at e g
  cases hr : allRows[i]? with
  | none => rw [hr] at e; cases e
  | some r =>
    rw [hr] at e
    simp only [Option.map_some, Option.some.injEq] at e
    have hmem := List.mem_of_getElem? hr
    obtain ⟨n, n', L, cc, hf⟩ := row_facts hmem
    obtain ⟨nm, hnm⟩ := NameRow.check_sound (List.all_eq_true.1 allNames_ok nr (List.mem_of_getElem? hi)) hmem e.symm (e ▸ hf.parsed)
    refine ⟨r, n, nm, L, n', cc, rfl, hmem, e.symm, hf, hnm, ?_⟩
    cases hj : (List.range 545)[i]? with
    | none => rw [hj] at g; cases g
    | some j =>
      rw [hj] at g
      obtain ⟨hlt, rfl⟩ := List.getElem?_eq_some_iff.1 hj
      simp only [List.getElem_range, Option.map_some, Option.some.injEq] at g
      rw [g, Bool.not_eq_true', ne_eq, ← Bool.not_eq_true, Nat.beq_eq]

/-- The row of the full table with its name. -/
theorem full_nameRow {i : Nat} {name h : String} (hn : fullTable.getHm i = some name) (hh : fullTable.getHall i = some h) :
    ∃ nr, allNames[i]? = some nr ∧ nr.name = name ∧ nr.hall = h := by
  have e1 := congrArg (fun l => l[i]?) names_full
  have e2 := congrArg (fun l => l[i]?) rows_full_halls
  have e3 := congrArg (fun l => l[i]?) names_halls
  simp only [SpaceGroupTable.getHm, SpaceGroupTable.getHall, fullTable] at hn hh
  simp only [List.getElem?_map, hn, hh] at e1 e2 e3
  cases hr : (allNames.take 530)[i]? with
  | none => rw [hr] at e1; cases e1
  | some nr =>
    rw [hr] at e1
    simp only [Option.map_some, Option.some.injEq] at e1
    have hi : i < 530 := by
      have := (List.getElem?_eq_some_iff.1 hr).1
      simp only [List.length_take] at this
      omega
    rw [List.getElem?_take_of_lt hi] at hr e2
    rw [hr] at e3
    cases hr' : allRows[i]? with
    | none => rw [hr'] at e2; cases e2
    | some r =>
      rw [hr'] at e2 e3
      simp only [Option.map_some, Option.some.injEq] at e2 e3
      exact ⟨nr, hr, e1, e3.trans e2⟩

/-! ## C63 -/

/-- C63, except for one row: the Hermann-Mauguin symbol of every row of the full table is a name of the group of the row's
Hall symbol. (The exception is row 366, number 90: `hm_90_wrong`.) -/
theorem hm_names_row_partial (i : Nat) (hi : i ≠ 366) (name h : String) (hn : fullTable.getHm i = some name)
    (hh : fullTable.getHall i = some h) : ∃ n, HallSymbolNotation.tryFromStr h.toList = some n ∧ Names name n := by
  obtain ⟨nr, hnr, rfl, rfl⟩ := full_nameRow hn hh
  obtain ⟨r, n, nm, L, n', cc, _, hr, e, hf, hnm, hok⟩ := nameRow_facts hnr
  exact ⟨n, tryFromStr_of_parse (e ▸ hf.parsed), nm, hnm.read, hnm.fits (hok.2 hi)⟩

/-- The same through the variants of `SpaceGroupHallSymbol`: `get_hm_symbol` names the group of the notation the variant is
converted to. -/
theorem variant_names_partial (v : SpaceGroupHallSymbol) (hv : v.val ≠ 366) :
    ∃ name n, v.hmSymbol = .ok name ∧ v.toNotation = .ok n ∧ Names name n := by
  have hlen : Data.variantNames.length = 530 := by decide +kernel
  have hlt : v.val < 530 := Nat.lt_of_lt_of_eq v.isLt hlen
  have h1 : ∃ name, fullTable.getHm v.val = some name := ((index_lookups fullTable (.inl rfl)).2.2 v.val).2.1.2 (by
    rw [(index_lookups fullTable (.inl rfl)).2.1.1]; exact hlt)
  have h2 : ∃ h, fullTable.getHall v.val = some h := ((index_lookups fullTable (.inl rfl)).2.2 v.val).2.2.2 (by
    rw [(index_lookups fullTable (.inl rfl)).2.1.1]; exact hlt)
  obtain ⟨name, h1⟩ := h1
  obtain ⟨h, h2⟩ := h2
  obtain ⟨n, hn, hnames⟩ := hm_names_row_partial v.val hv name h h1 h2
  refine ⟨name, n, ?_, ?_, hnames⟩
  · unfold SpaceGroupHallSymbol.hmSymbol; rw [h1]
  · unfold SpaceGroupHallSymbol.toNotation SpaceGroupHallSymbol.hallSymbol
    rw [h2]
    simp only [hn]

/-- The row the theorem leaves out: the group of number 90 is listed as `P 42 1 2`, which is not a name of it (it has no
screw axis `4₂`); `P 4 21 2` is one. -/
theorem hm_90_wrong : fullTable.getHm 366 = some "P 42 1 2" ∧ fullTable.getHall 366 = some "P 4ab 2ab" ∧
    fullTable.getNumber 366 = some "90" ∧
    ∃ n, HallSymbolNotation.tryFromStr "P 4ab 2ab".toList = some n ∧ ¬ Names "P 42 1 2" n ∧ Names "P 4 21 2" n := by
  refine ⟨by decide +kernel, by decide +kernel, by decide +kernel, ?_⟩
  have h : InTables "90" "P 4ab 2ab" := .inl ⟨366, by decide +kernel⟩
  obtain ⟨row, hr, e, _⟩ := inTables_row h
  obtain ⟨n, n', L, cc, hf⟩ := row_facts hr
  have hp := hf.parsed
  rw [e] at hp
  refine ⟨n, tryFromStr_of_parse hp, misfitB_sound (by decide +kernel) hr e hp, ?_⟩
  obtain ⟨nm, hnm⟩ := NameRow.check_sound (row := ⟨"P 4ab 2ab", "P 4 21 2", true, 139586437152, 0⟩) (by decide +kernel) hr e hp
  exact ⟨nm, hnm.read, hnm.fits rfl⟩

example : fullTable.getHm 297 = some "C m c m" ∧ fullTable.getHall 297 = some "-C 2c 2" := by decide +kernel
example : readName "P 42/n c m:2".toList =
    some ⟨'P', .tetragonal, [(z, .axis 4 2), (z, .plane 'n'), (x, .plane 'c'), (xy, .plane 'm')]⟩ := by decide +kernel

/-! ## C64 -/

/-- The rows of the default table whose name is not a name of their group: numbers 10-15, 83-88, 123-142, 175, 176, 191-194
(the name is cut off at `/`), 90 and 155. -/
def misnamed : List Nat :=
  [9, 10, 11, 12, 13, 14, 82, 83, 84, 85, 86, 87, 89, 122, 123, 124, 125, 126, 127, 128, 129, 130, 131, 132, 133, 134, 135, 136,
    137, 138, 139, 140, 141, 154, 174, 175, 190, 191, 192, 193]

/-- Equality of two lists of words, by the codes of the characters. -/
def wordsB : List (List Char) → List (List Char) → Bool
  | [], [] => true
  | a :: l, b :: l' => charsB a b && wordsB l l'
  | _, _ => false

theorem wordsB_sound {l l' : List (List Char)} (h : wordsB l l' = true) : l = l' := by
  induction l generalizing l' with
  | nil => cases l' with
    | nil => rfl
    | cons b l' => cases h
  | cons a l ih => cases l' with
    | nil => cases h
    | cons b l' =>
      simp only [wordsB, Bool.and_eq_true] at h
      rw [charsB_sound h.1, ih h.2]

/-- Two texts with the same words. -/
def sameWordsB (a b : List Char) : Bool :=
  wordsB (words (a.span (· ≠ ':')).1) (words (b.span (· ≠ ':')).1) &&
    charsB ((a.span (· ≠ ':')).2.take 2) ((b.span (· ≠ ':')).2.take 2)

theorem sameWordsB_sound {a b : List Char} (h : sameWordsB a b = true) : readName a = readName b := by
  simp only [sameWordsB, Bool.and_eq_true] at h
  unfold readName
  simp only []
  rw [wordsB_sound h.1, charsB_sound h.2]

/-- A name that is read like the one of the row in `allNames`. -/
def goodDefaultB (i : Nat) : Bool :=
  match Data.defaultHmFull[i]?, defaultIndices[i]? with
  | some a, some k =>
    match allNames[k]? with
    | some r => r.ok && (sameWordsB a.toList r.name.toList || decide (readName a.toList = readName r.name.toList))
    | none => false
  | _, _ => false

/-- A name that does not fit. -/
def badDefaultB (i : Nat) : Bool :=
  match Data.defaultHmFull[i]?, Data.defaultHallName[i]? with
  | some a, some h => misfitB h a
  | _, _ => false

theorem default_check : (List.range 230).all (fun i => bif misnamed.any (Nat.beq i) then badDefaultB i else goodDefaultB i) = true := by
  decide +kernel

/-- The row of the default table in `allNames`. -/
theorem default_nameRow {i : Nat} {h : String} (hh : defaultTable.getHall i = some h) :
    i < 230 ∧ ∃ k nr, defaultIndices[i]? = some k ∧ allNames[k]? = some nr ∧ nr.hall = h := by
  have e2 := congrArg (fun l => l[i]?) rows_default_halls
  simp only [SpaceGroupTable.getHall, defaultTable] at hh
  simp only [List.getElem?_map, hh, Option.map_some] at e2
  refine ⟨?_, ?_⟩
  · have := (List.getElem?_eq_some_iff.1 hh).1
    have hl : Data.defaultHallName.length = 230 := by decide +kernel
    omega
  cases hk : defaultIndices[i]? with
  | none => rw [hk] at e2; cases e2
  | some k =>
    rw [hk] at e2
    simp only [Option.map_some, Option.some.injEq] at e2
    have e3 := congrArg (fun l => l[k]?) names_halls
    simp only [List.getElem?_map] at e3
    rw [e2] at e3
    cases hr : allNames[k]? with
    | none => rw [hr] at e3; cases e3
    | some nr =>
      rw [hr] at e3
      exact ⟨k, nr, rfl, hr, Option.some.inj e3⟩

/-- C64, for the rows where it is true, and its negation for the others: the Hermann-Mauguin symbol of a row of the default
table is a name of the group of the row's Hall symbol exactly if the row is not one of the 40 listed in `misnamed`. -/
theorem default_hm_names_partial (i : Nat) (name h : String) (hn : defaultTable.getHm i = some name)
    (hh : defaultTable.getHall i = some h) :
    ∃ n, HallSymbolNotation.tryFromStr h.toList = some n ∧ (Names name n ↔ i ∉ misnamed) := by
  obtain ⟨hi, k, nr, hk, hnr, e⟩ := default_nameRow hh
  obtain ⟨r, n, nm, L, n', cc, _, hr, e', hf, hnm, hok⟩ := nameRow_facts hnr
  have hp := hf.parsed
  rw [e', e] at hp
  refine ⟨n, tryFromStr_of_parse hp, ?_⟩
  have hc := List.all_eq_true.1 default_check i (List.mem_range.2 hi)
  have hn' : Data.defaultHmFull[i]? = some name := hn
  have hh' : Data.defaultHallName[i]? = some h := hh
  by_cases hm : i ∈ misnamed
  · refine ⟨fun h => absurd h ?_, fun h => absurd hm h⟩
    rw [show misnamed.any (Nat.beq i) = true from List.any_eq_true.2 ⟨i, hm, Nat.beq_refl i⟩, cond_true] at hc
    unfold badDefaultB at hc
    rw [hn', hh'] at hc
    exact misfitB_sound hc hr (e'.trans e) hp
  · refine ⟨fun _ => hm, fun _ => ?_⟩
    have hf' : misnamed.any (Nat.beq i) = false := by
      rw [← Bool.not_eq_true, List.any_eq_true]
      rintro ⟨j, hj, ej⟩
      exact hm (Nat.eq_of_beq_eq_true ej ▸ hj)
    rw [hf', cond_false] at hc
    unfold goodDefaultB at hc
    rw [hn', hk] at hc
    simp only [hnr, Bool.and_eq_true, Bool.or_eq_true, decide_eq_true_eq] at hc
    exact ⟨nm, (hc.2.elim sameWordsB_sound id).trans hnm.read, hnm.fits hc.1⟩

example : misnamed.length = 40 ∧ misnamed.Nodup := by decide +kernel
example : defaultTable.getHm 62 = some "C m c m   " ∧ defaultTable.getHall 62 = some "-C 2c 2" ∧ 62 ∉ misnamed := by decide +kernel

/-! ## C65 -/

/-- The types whose symbols name the same elements: 23 and 24 (`I 2 2 2` and `I 21 21 21` have axes of both kinds), 197 and
199 (`I 2 3` and `I 21 3`). -/
def mergedNumber (k : Nat) : Nat := if k = 24 then 23 else if k = 199 then 197 else k

/-- Two rows whose groups have the same lattice and rotations: the numbers agree, or neither name fits both groups. -/
def separatedNames (a b : Nat × NameRow) : Bool :=
  Nat.beq (mergedNumber a.1) (mergedNumber b.1) ||
    ((! a.2.ok || ! Nat.beq (Nat.land a.2.mask b.2.absent) 0) && (! b.2.ok || ! Nat.beq (Nat.land b.2.mask a.2.absent) 0))

theorem names_separated : quick separatedNames 546 ((allRows.zip allNames).map fun p => (classKey p.1.key, (p.1.num, p.2))) = true := by
  decide +kernel

theorem separatedNames_symm {a b : Nat × NameRow} (h : separatedNames a b = true) : separatedNames b a = true := by
  unfold separatedNames at *
  simp only [Bool.or_eq_true, Bool.and_eq_true, Nat.beq_eq] at *
  exact h.imp Eq.symm And.symm

theorem names_separated_all {i j : Nat} {r s : Row} {a b : NameRow} (hr : allRows[i]? = some r) (ha : allNames[i]? = some a)
    (hs : allRows[j]? = some s) (hb : allNames[j]? = some b) (hk : classKey r.key = classKey s.key) (hne : r.num ≠ s.num) :
    separatedNames (r.num, a) (s.num, b) = true := by
  have hp := quick_iff names_separated
  rw [List.pairwise_map] at hp
  have hr' : (r, a) ∈ allRows.zip allNames := List.mem_of_getElem? (i := i) (by rw [List.getElem?_zip_eq_some]; exact ⟨hr, ha⟩)
  have hs' : (s, b) ∈ allRows.zip allNames := List.mem_of_getElem? (i := j) (by rw [List.getElem?_zip_eq_some]; exact ⟨hs, hb⟩)
  have hsym : Std.Symm fun p q : Row × NameRow => classKey p.1.key = classKey q.1.key → p.1.num ≠ q.1.num →
      separatedNames (p.1.num, p.2) (q.1.num, q.2) = true :=
    ⟨fun p q h e hne => separatedNames_symm (h e.symm (Ne.symm hne))⟩
  refine @List.Pairwise.forall_of_forall _ _ _ hsym ?_ (hp.imp ?_) (r, a) hr' (s, b) hs' hk hne
  · intro p _ _ hne
    exact absurd rfl hne
  · intro p q h e _
    exact h e

/-- A row of one of the two tables: number code, Hermann-Mauguin symbol, Hall symbol. -/
def IsRow (code name hallSymbol : String) : Prop := ∃ t, (t = fullTable ∨ t = defaultTable) ∧
  ∃ i, t.getNumber i = some code ∧ t.getHm i = some name ∧ t.getHall i = some hallSymbol

/-- A row whose name fits is read like the one in `allNames`. -/
theorem isRow_nameRow {code name h : String} (hr : IsRow code name h) {n : HallSymbolNotation}
    (hn : HallSymbolNotation.tryFromStr h.toList = some n) (hnames : Names name n) :
    ∃ (i : Nat) (nr : NameRow) (r : Row), allNames[i]? = some nr ∧ allRows[i]? = some r ∧ nr.ok = true ∧ nr.hall = h ∧
      r.num = spaceGroupNumber code ∧ readName name.toList = readName nr.name.toList := by
  obtain ⟨t, ht, i, h1, h2, h3⟩ := hr
  rcases ht with rfl | rfl
  · obtain ⟨nr, hnr, rfl, rfl⟩ := full_nameRow h2 h3
    obtain ⟨r, n1, nm, L, n', cc, hr, hmem, e, hf, hnm, hok⟩ := nameRow_facts hnr
    refine ⟨i, nr, r, hnr, hr, hok.2 ?_, rfl, ?_, rfl⟩
    · rintro rfl
      obtain ⟨g1, g2, _, m, g3, g4, _⟩ := hm_90_wrong
      rw [h2] at g1
      rw [h3] at g2
      rw [Option.some.inj g2, g3] at hn
      obtain rfl := Option.some.inj hn
      rw [Option.some.inj g1] at hnames
      exact g4 hnames
    · have e1 := congrArg (fun l => l[i]?) rows_full_numbers
      have h1' : Data.numberAndChoice[i]? = some code := h1
      have hi : i < 530 := by
        have := (List.getElem?_eq_some_iff.1 h1').1
        have hl : Data.numberAndChoice.length = 530 := by decide +kernel
        omega
      simp only [List.getElem?_map, h1', Option.map_some, List.getElem?_take_of_lt hi, hr, Option.some.injEq] at e1
      exact e1
  · obtain ⟨hi, k, nr, hk, hnr, e⟩ := default_nameRow h3
    obtain ⟨r, n1, nm, L, n', cc, hr, hmem, e', hf, hnm, hok⟩ := nameRow_facts hnr
    obtain ⟨m, hm1, hm2⟩ := default_hm_names_partial i name h h2 h3
    rw [hn] at hm1
    obtain rfl := Option.some.inj hm1
    have hmis := hm2.1 hnames
    have hc := List.all_eq_true.1 default_check i (List.mem_range.2 hi)
    have hf' : misnamed.any (Nat.beq i) = false := by
      rw [← Bool.not_eq_true, List.any_eq_true]
      rintro ⟨j, hj, ej⟩
      exact hmis (Nat.eq_of_beq_eq_true ej ▸ hj)
    rw [hf', cond_false] at hc
    unfold goodDefaultB at hc
    rw [show Data.defaultHmFull[i]? = some name from h2, hk] at hc
    simp only [hnr, Bool.and_eq_true, Bool.or_eq_true, decide_eq_true_eq] at hc
    refine ⟨k, nr, r, hnr, hr, hc.1, e, ?_, hc.2.elim sameWordsB_sound id⟩
    have e1 := congrArg (fun l => l[i]?) rows_default_numbers
    have h1' : Data.defaultNumberAndChoice[i]? = some code := h1
    simp only [List.getElem?_map, h1', Option.map_some, hk, hr, Option.some.injEq] at e1
    exact e1

/-- C65, except for two pairs of types: a Hermann-Mauguin symbol listed in one of the tables that names the group of its own
row names no group listed under another space-group number, in either table and in any setting. (For the two pairs see
`hm_ambiguous`.) -/
theorem hm_identifies_partial (code name h code' h' : String) (hr : IsRow code name h) (hr' : InTables code' h')
    (n n' : HallSymbolNotation) (hn : HallSymbolNotation.tryFromStr h.toList = some n)
    (hn' : HallSymbolNotation.tryFromStr h'.toList = some n') (h1 : Names name n) (h2 : Names name n') :
    spaceGroupNumber code = spaceGroupNumber code' ∨
    (spaceGroupNumber code ∈ [23, 24] ∧ spaceGroupNumber code' ∈ [23, 24]) ∨
    (spaceGroupNumber code ∈ [197, 199] ∧ spaceGroupNumber code' ∈ [197, 199]) := by
  obtain ⟨i, a, r, ha, har, hok, hh, hnum, hread⟩ := isRow_nameRow hr hn h1
  obtain ⟨s, hs, hsh, hsnum⟩ := inTables_row hr'
  obtain ⟨j, hj⟩ := List.mem_iff_getElem?.1 hs
  have hb : ∃ b, allNames[j]? = some b := by
    have e := congrArg (fun l => l[j]?) names_halls
    simp only [List.getElem?_map, hj, Option.map_some] at e
    cases hb : allNames[j]? with
    | none => rw [hb] at e; cases e
    | some b => exact ⟨b, rfl⟩
  obtain ⟨b, hb⟩ := hb
  obtain ⟨r2, m, nm, L, m', cc, e1, _, e2, hf, hnm, _⟩ := nameRow_facts ha
  rw [har] at e1
  obtain rfl := Option.some.inj e1
  obtain ⟨s2, k, km, L', k', cc', e3, _, e4, hf', hkm, _⟩ := nameRow_facts hb
  rw [hj] at e3
  obtain rfl := Option.some.inj e3
  have hm := tryFromStr_of_parse hf.parsed
  rw [e2, hh, hn] at hm
  obtain rfl := Option.some.inj hm
  have hk := tryFromStr_of_parse hf'.parsed
  rw [hsh, hn'] at hk
  obtain rfl := Option.some.inj hk
  obtain ⟨nm1, g1, g2⟩ := h1
  obtain ⟨nm2, g3, g4⟩ := h2
  rw [g1] at g3
  obtain rfl := Option.some.inj g3
  have hparts := readName_parts g1
  have hpg : PointGroup n = PointGroup n' := Set.Subset.antisymm (g2.pointGroup_le hparts g4) (g4.pointGroup_le hparts g2)
  have hlat := g2.lattice_eq hf.described.consistent hf'.described.consistent g4
  have hkey := classKey_eq (t := functionals) hf.described hf'.described hlat hpg
  rw [hf.key, hf'.key] at hkey
  rw [← hnum, ← hsnum]
  by_cases hne : r.num = s.num
  · exact .inl hne
  have hsep := names_separated_all har ha hj hb hkey hne
  unfold separatedNames at hsep
  simp only [Bool.or_eq_true, Bool.and_eq_true, Bool.not_eq_true', hok, Bool.true_eq_false, false_or] at hsep
  rcases hsep with hsep | ⟨hsep, _⟩
  · have := Nat.eq_of_beq_eq_true hsep
    unfold mergedNumber at this
    simp only [List.mem_cons, List.not_mem_nil, or_false]
    split at this <;> split at this <;> (try split at this) <;> (try split at this) <;> omega
  · refine absurd g4 (hkm.absent nm1 ?_)
    have : nm = nm1 := Option.some.inj (hnm.read.symm.trans (hread.symm.trans g1))
    rw [← this, hnm.mask]
    intro h0
    change Nat.land a.mask b.absent = 0 at h0
    rw [h0] at hsep
    cases hsep

/-- The pairs the theorem leaves out: `I 2 2 2` (number 23) is also a name of a group of number 24, and `I 2 3` (number 197)
of one of number 199: by convention, not by their elements, the names tell which is meant. -/
theorem hm_ambiguous :
    (IsRow "23" "I 2 2 2" "I 2 2" ∧ InTables "24" "I 2ac 2ab" ∧ IsRow "197" "I 2 3" "I 2 2 3" ∧ InTables "199" "I 2b 2c 3") ∧
    ∀ e ∈ [("I 2 2 2", "I 2 2"), ("I 2 2 2", "I 2ac 2ab"), ("I 2 3", "I 2 2 3"), ("I 2 3", "I 2b 2c 3")],
      ∃ n, HallSymbolNotation.tryFromStr e.2.toList = some n ∧ Names e.1 n := by
  have t : InTables "23" "I 2 2" ∧ InTables "24" "I 2ac 2ab" ∧ InTables "197" "I 2 2 3" ∧ InTables "199" "I 2b 2c 3" :=
    ⟨.inl ⟨122, by decide +kernel⟩, .inr ⟨23, by decide +kernel⟩, .inl ⟨490, by decide +kernel⟩, .inl ⟨492, by decide +kernel⟩⟩
  refine ⟨⟨⟨_, .inl rfl, 122, by decide +kernel⟩, t.2.1, ⟨_, .inl rfl, 490, by decide +kernel⟩, t.2.2.2⟩, ?_⟩
  have key : ∀ (code h name : String) (m : Nat), InTables code h → (NameRow.mk h name true m 0).check = true →
      ∃ n, HallSymbolNotation.tryFromStr h.toList = some n ∧ Names name n := by
    intro code h name m hh hc
    obtain ⟨row, hr, e, _⟩ := inTables_row hh
    obtain ⟨n, n', L, cc, hf⟩ := row_facts hr
    have hp := hf.parsed
    rw [e] at hp
    obtain ⟨nm, hnm⟩ := NameRow.check_sound hc hr e hp
    exact ⟨n, tryFromStr_of_parse hp, nm, hnm.read, hnm.fits rfl⟩
  simp only [List.mem_cons, List.not_mem_nil, or_false, forall_eq_or_imp, forall_eq]
  exact ⟨key _ _ _ 68736253953 t.1 (by decide +kernel), key _ _ _ 68736253953 t.2.1 (by decide +kernel), key _ _ _ 8796093022209 t.2.2.1 (by decide +kernel),
    key _ _ _ 8796093022209 t.2.2.2 (by decide +kernel)⟩

/-! ## C66 -/

/-- The symbols the two tables disagree on. -/
def disputed : List String := ["P 4", "P 42", "I 4", "I 41", "P 6", "P 63"]

/-- The symbols listed in both tables. -/
def shared : List String := ["P 21 21 21", "I 21 21 21", "P 4", "P 42", "I 4", "I 41", "P 6", "P 63", "P n -3 n:1", "P n -3 m:1", "F d -3 m:1", "F d -3 c:1"]

/-- The symbols of the default table as numbers. -/
def defaultHmCodes : List Nat := [
  2946589954272677729473387112403238397034176300165988247142432,
  2946589954272677720951018811769309155106272443949755028996128,
  2946589954272677729473387112434135429208490042887512262705184,
  2946589954272677729473387112434135455400205234102106415169568,
  2946555574498451602074708360891312826077614094899018649829408,
  2946589954272677729473387112535409034668663586518048691978272,
  2946589954272677729473387112518244016794057901156940822609952,
  2946555574498451602074708360992586431537787638529555079102496,
  2946555574498451602074708360975421413663181953168447209734176,
  1716625042745763390507238555698,
  1912512559623567942524800561765810225,
  1716605013769110246666251796530,
  1716625042745763390507238555698,
  1912512559623567942524800561765810225,
  1716605013769110246666251796530,
  2946589954272677731603987315187385322583432229537618159730720,
  2946589954272677731603987315187385322583432229558719334055968,
  2946589954272677731604019825535558649713429183884329776971808,
  2946589954272677731604019825535558649713429183884329776971825,
  2946555574498451604205308563644562719452556281570225721180192,
  2946555574498451604205308563644562719452556281549124546854944,
  2946563508292503787451157506308291012482758423392623072903200,
  2946571442086555970697006448972019305512960565236121598951456,
  2946571442086555970697038959320192632642957519582833216192561,
  2946589954272677857309399277730402637165113195217328325787680,
  2946589954272677857309399277713237619290507509877321630744608,
  2946589954272677836003397250180738685541099472220767280693280,
  2946589954272677857309399277709804615715586372783998882545696,
  2946589954272677836003397250177305681966178335169646881144864,
  2946589954272677859439999480466487512665448313619765773991968,
  2946589954272677857309399277732119138952573763774540287049760,
  2946589954272677833872797047424055788591237531385000389247008,
  2946589954272677859439999480463054509090527176568645374443552,
  2946589954272677859439999480485369032327514567516984430297120,
  2946555574498451729910720526187580034034237247228834712911904,
  2946555574498451729910720526170415016159631561888828017868832,
  2946555574498451708604718498637916082410223524232273667817504,
  2946550285302416941080154564411761172014102485999835695546400,
  2946550285302416917643552334126012344889753644600837202247712,
  2946550285302416941080154564391163150564575663566506252304416,
  2946550285302416917643552334105414323440226822167507759005728,
  2946563508292503913156569468851308327064439389072333238960160,
  2946563508292503893981167644056610770602827038375428298375200,
  2946571442086556096402418411515036620094641530915831765008416,
  2946571442086556072965816181208689771520765867083503828467744,
  2946571442086556096402418411494438598645114708482502321766432,
  2946589954272677857309399277730402637165194785524402513510432,
  2946589954272677859439999480485369032327597540742891600674848,
  2946589954272677836003397250180738685541181062527841468416032,
  2946589954272677833872797047424055788591320504610907559624736,
  2946589954272677857309399277730402637165178190885675560075296,
  2946589954272677859439999480485369032327579563185331664584736,
  2946589954272677857309399277732119138952638759421786347012128,
  2946589954272677836003397250180738685541164467889114514980896,
  2946589954272677833872797047424055788591319121692074576969760,
  2946589954272677836003397250180738685541182445414402047868960,
  2946589954272677833872797047427488792166240258764296150843424,
  2946589954272677859439999480485369032327596157824058618019872,
  2946589954272677857309399277730402637165196168443235496165408,
  2946589954272677833872797047427488792166241641650856730296352,
  2946589954272677833872797047427488792166223664125569197408288,
  2946589954272677859439999480483652530540118994649220877647904,
  2946555574498451729910720526170415016159713152174801031266336,
  2946555574498451729910720526170415016159696557536074077831200,
  2946555574498451729910720526187580034034318837535908900634656,
  2946555574498451708604718498637916082410305114539347855540256,
  2946555574498451729910720526187580034034302242897181947199520,
  2946555574498451708604718498637916082410288519932893305307168,
  2946563508292503913156569468851308327064520979379407426682912,
  2946563508292503893981167644056610770602896182735729674223648,
  2946571442086556096402418411515036620094723121222905952731168,
  2946571442086556072965816181208689771520847457390578016190496,
  2946571442086556072965816181212122775095751999824072636629024,
  2946571442086556096402418411515036620094706526584178999296032,
  2946589954272677735865187720662988077158998711456624199860256,
  2946589954272677735865220231042058408730858070294572252004384,
  2946589954272677735865222143417297839999790973755628019777568,
  2946589954272677735865224055792537271268723877216683787550752,
  2946571442086555974958206854447622060088527047155127639080992,
  2946571442086555974958239364826692391660386405993075691225120,
  2946589954272677720951024548895027448913071154332922332315680,
  2946571442086555960044043682679661431842599490031425771536416,
  1382985860258988084,
  1540801142744861732241458,
  1382985860258988084,
  1540801142744861732241458,
  1382977171540148276,
  1540791462538937676070961,
  2946589954272677735865187720693885109333313837064708794875936,
  2946589954272677735865222143417297866191529674042993268490272,
  2946589954272677735865220231042058436463287282362232961237024,
  2946589954272677735865220231042058436463310791411420412117024,
  2946589954272677735865222143417297867732220185823288729010208,
  2946589954272677735865222143417297867732243694872476179890208,
  2946589954272677735865224055792537299001153089284344496783392,
  2946589954272677735865224055792537299001176598333531947663392,
  2946571442086555974958206854478519092262842172763212234096672,
  2946571442086555974958239364826692419392815618060736400457760,
  2946589954272677735865187720795158714793568971002319411871776,
  2946589954272677735865187720776277195131502717105100755566624,
  2946589954272677735865222143417297943226055263130999781851168,
  2946589954272677735865222143417297960173650892714249847570464,
  2946589954272677735865187720777993696918949456775605747974176,
  2946589954272677735865187720796875216581015710672824404279328,
  2946589954272677735865222143417297958632960380921541931565088,
  2946589954272677735865222143417297941685364751338291865845792,
  2946571442086555974958206854579792697723097306700822851092512,
  2946571442086555974958206854562627679848491621339714981724192,
  2946571442086555974958239364826692510293555813160230848561184,
  2946571442086555974958239364826692494886650695357276243361824,
  2946589954272677720951024548895027476645500366473816528912416,
  2946589954272677720951024548895027476645500366461404073426976,
  2946589954272677720951024548895027476645523875449770558160928,
  2946589954272677720951024548895027476645523875449770547019808,
  2946589954272677720951024548895027567546240561438015212224544,
  2946589954272677720951024548895027552139335443635060607025184,
  2946589954272677720951024548895027550598644931854765146505248,
  2946589954272677720951024548895027569086931073218310672744480,
  2946571442086555960044043682679661550475768897136518651445280,
  2946571442086555960044043682679661535068863779333564046245920,
  2946571442086555960044043682679661459575028702172319968133152,
  2946571442086555960044043682679661459575028702161148758196256,
  1382985860258988084,
  1382985860258988084,
  1382985860258988084,
  1382985860258988084,
  1382985860258988084,
  1382985860258988084,
  1382985860258988084,
  1382985860258988084,
  1540801142744861732241458,
  1540801142744861732241458,
  1540801142744861732241458,
  1540801142744861732241458,
  1540801142744861732241458,
  1540801142744861732241458,
  1540801142744861732241458,
  1540801142744861732241458,
  1382977171540148276,
  1382977171540148276,
  1540791462538937676070961,
  1540791462538937676070961,
  2946589954272677733734587517909738183784057907693078882287648,
  2946589954272677733734620028288808515355917266531026934431776,
  2946589954272677733734621940664047946624850169992082702204960,
  2946595243468712522565203201510442330294870900353959339229216,
  2946589954272677720951022636519788017644138250871866564542496,
  2946595243468712509781588598340235987765868265251564463063072,
  2946589954272677733734587517938918714170912464765052690366496,
  2946589954272677733734587517940635215958371650414602897850400,
  2946589954272677733734620028288808541547655966818392183144480,
  2946589954272677733734620028288808543088346478597446398115872,
  2946589954272677733734621940664047972816588870279447950917664,
  2946589954272677733734621940664047974357279382058502165889056,
  2946595243468712522565187902484495916746580184371780600725536,
  2946589954272677733734587518041908821418545194045139327123488,
  2946589954272677733734587517938918714170994055072126878089248,
  2946589954272677733734587518024743803543939508684031457755168,
  2946589954272677733734587517938918714170980226206521083559968,
  2946595243468712522565153479817727723496665067952713645424672,
  2946595243468712522565153479800562705622059382591605776056352,
  2946589954272677720951022636519788043835876951232465300619296,
  2946589954272677720951022636519788043835876951220052845133856,
  2946589954272677720951022636519788136277307657975718198902816,
  2946589954272677720951022636519788120870402540172763593703456,
  2946595243468712509781588598295606998297478374283840929660960,
  2946595243468712509781588598295606982890573256480886324461600,
  2946589954272677740126388126169487863908880318983714835005472,
  2946589954272677740126420636548558195480739677821662887149600,
  2946589954272677740126428286049515920556471291665885958242336,
  2946589954272677740126422548923797626749672581282718654922784,
  2946589954272677740126426373674276489287538388204830190469152,
  2946589954272677740126424461299037058018605484743774422695968,
  2946589954272677720951028373645506311450936961255033867862048,
  1382985860258988086,
  1540801142744861734469683,
  2946589954272677740126388126200384896083195444591799430021152,
  2946589954272677740126420636548558223213168889889323596382240,
  2946589954272677740126428286049515948288900503733546667474976,
  2946589954272677740126422548923797654482101793350379364155424,
  2946589954272677740126426373674276517019967600272490899701792,
  2946589954272677740126424461299037085751034696811435131928608,
  2946589954272677740126388126301658501543450578529410047016992,
  2946589954272677740126388126284493483668831064302696383119392,
  2946589954272677740126424461299037161244869774119146184769568,
  2946589954272677740126424461299037176651774891909688334483488,
  2946589954272677720951028373645506430084106368360126747770912,
  2946589954272677720951028373645506414677201250557172142571552,
  2946589954272677720951028373645506339183366173395928064458784,
  2946589954272677720951028373645506339183366173383515608973344,
  1382985860258988086,
  1382985860258988086,
  1540801142744861734469683,
  1540801142744861734469683,
  2946589954272677731603987315189101824370867906115638516514848,
  2946563508292503787451157506310007514270194099970643429687328,
  2946571442086555970697006448973735807300396241814141955735584,
  2946589954272677731604019825535558651254096186593095366737952,
  2946571442086555970697038959320192634183624522291598805958688,
  2946589954272677857309399277620546552040731640773761281556512,
  2946589954272677859439999480373796445415708399608982839230496,
  2946563508292503913156569468741452241940057834628766194728992,
  2946563508292503893981167643962203201565626555828534576676896,
  2946571442086556096402418411405180534970259976472264720777248,
  2946589954272677831742196844581547831541441995611217470685216,
  2946571442086556070835215978366181814470970331309720909905952,
  2946589954272677735865187720695601611120774405600819581812768,
  2946589954272677735865222143417297869272910697603584189530144,
  2946563508292503791712357911816507301020100599455824494985248,
  2946563508292503791712390422162964127903303987997533334929440,
  2946571442086555974958206854480235594050302741299323021033504,
  2946589954272677735865224055792537300541843601064639957303328,
  2946589954272677735865220231042058438003977794142528421756960,
  2946571442086555974958239364826692420933506129841031860977696,
  2946589954272677720951024548895027478186190878254111989432352,
  2946563508292503776798194740015933168085517072109116902604832,
  2946571442086555960044043682679661461115719213952615428653088,
  2946589954272677720951024548895027478186190878255353234980896,
  2946563508292503776798194740015933168085517072096704447119392,
  2946571442086555960044043682679661461115719213941444218716192,
  2946589954272677857309399277620546552040731640869337188794400,
  2946589954272677859439999480373796445415672444634123780882481,
  2946589954272677857309399277620546552040731640870578434342944,
  2946589954272677859439999480373796445415672444632882535333937,
  2946563508292503913156569468741452241940057834724342101966880,
  2946563508292503913156569468741452241940057834711929646481440,
  2946563508292503893981167643962203201565590600852434272780337,
  2946563508292503893981167643962203201565590600840021817294897,
  2946571442086556096402418411405180534970259976567840628015136,
  2946571442086556070835215978366181814470970331394125607206944]

theorem defaultHmCodes_eq : Data.defaultHmFull.map textCode = defaultHmCodes := by decide +kernel

theorem shared_check : hmCodes.all (fun c => ! defaultHmCodes.any (Nat.beq c) || (shared.map textCode).any (Nat.beq c)) = true := by
  decide +kernel

theorem mem_shared {hm : String} (h1 : hm ∈ Data.hmFull) (h2 : hm ∈ Data.defaultHmFull) : hm ∈ shared := by
  have c1 : textCode hm ∈ hmCodes := hmCodes_eq ▸ List.mem_map_of_mem h1
  have c2 : textCode hm ∈ defaultHmCodes := defaultHmCodes_eq ▸ List.mem_map_of_mem h2
  have h := List.all_eq_true.1 shared_check _ c1
  rw [List.any_eq_true.2 ⟨_, c2, Nat.beq_refl _⟩, Bool.not_true, Bool.false_or, List.any_eq_true] at h
  obtain ⟨k, hk, e⟩ := h
  obtain ⟨w, hw, rfl⟩ := List.mem_map.1 hk
  rw [textCode_inj (Nat.eq_of_beq_eq_true e)]
  exact hw

theorem lookups_check : shared.all (fun hm => match fullTable.numberByHm hm, defaultTable.numberByHm hm with
    | some a, some b => decide ((spaceGroupNumber a = spaceGroupNumber b) ↔ hm ∉ disputed)
    | _, _ => true) = true := by decide +kernel

/-- C66, for all symbols but six, and its negation for these: a Hermann-Mauguin symbol that both tables know is looked up
with the same space-group number exactly if it is not one of `P 4`, `P 42`, `I 4`, `I 41`, `P 6`, `P 63`. -/
theorem hm_lookups_agree_partial (hm a b : String) (ha : fullTable.numberByHm hm = some a)
    (hb : defaultTable.numberByHm hm = some b) : spaceGroupNumber a = spaceGroupNumber b ↔ hm ∉ disputed := by
  have hmem : hm ∈ Data.hmFull := by
    by_contra hc
    have := (hm_lookup_partial.2.1 hm).2 hc
    rw [ha] at this
    cases this
  have hmem' : hm ∈ Data.defaultHmFull := by
    by_contra hc
    have := (hm_lookup_partial.2.2.1 hm).2 hc
    rw [hb] at this
    cases this
  have h := List.all_eq_true.1 lookups_check hm (mem_shared hmem hmem')
  rw [ha, hb] at h
  exact of_decide_eq_true h

/-- C66 is false for the six: the symbol of number 75 is looked up as number 83 in the default table, because that table
pads `P 4` with blanks and cuts `P 4/m` at the `/`. -/
theorem hm_lookups_disagree : fullTable.numberByHm "P 4" = some "75" ∧ defaultTable.numberByHm "P 4" = some "83" ∧
    (∀ hm ∈ disputed, (fullTable.numberByHm hm).isSome = true ∧ (defaultTable.numberByHm hm).isSome = true) ∧
    fullTable.numberByHm "C m c m" = some "63" ∧ defaultTable.numberByHm "C m c m" = none := by decide +kernel

end Verif.HM
