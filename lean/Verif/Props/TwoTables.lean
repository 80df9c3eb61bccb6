import Verif.Props.TableGroups

/-! # The two tables agree (C52), and the enum names its rows (C51) -/

namespace Verif

set_option maxRecDepth 100000

/-! ## C52 -/

/-- The codes of origin choice 1: the default table lists the symbol of origin choice 2 under them. -/
def originChoiceOne : List String :=
  ["48:1", "50:1", "59:1", "68:1", "70:1", "85:1", "86:1", "88:1", "125:1", "126:1", "129:1", "130:1", "133:1", "134:1",
   "137:1", "138:1", "141:1", "142:1", "201:1", "203:1", "222:1", "224:1", "227:1", "228:1"]

/-- The row of the full table with the code of each row of the default table. -/
def fullIndices : List Nat := [0, 1, 2, 5, 8, 17, 20, 29, 38, 56, 59, 62, 71, 80, 89, 107, 108, 111, 114, 115, 118, 121, 122, 123, 124, 127, 133, 136, 142, 148, 154, 160, 163, 169, 172, 175, 181, 184, 190, 196, 202, 208, 211, 214, 217, 220, 226, 227, 229, 232, 238, 244, 250, 256, 262, 265, 268, 274, 277, 283, 289, 291, 297, 303, 309, 312, 315, 321, 333, 334, 336, 337, 340, 342, 348, 349, 350, 351, 352, 353, 354, 355, 356, 357, 358, 360, 362, 363, 365, 366, 367, 368, 369, 370, 371, 372, 373, 374, 375, 376, 377, 378, 379, 380, 381, 382, 383, 384, 385, 386, 387, 388, 389, 390, 391, 392, 393, 394, 395, 396, 397, 398, 399, 400, 401, 403, 405, 406, 407, 409, 411, 412, 413, 415, 417, 418, 419, 421, 423, 424, 425, 427, 429, 430, 431, 432, 434, 435, 437, 438, 439, 440, 441, 442, 443, 445, 446, 447, 448, 449, 451, 453, 454, 455, 456, 457, 459, 461, 462, 463, 464, 465, 466, 467, 468, 469, 470, 471, 472, 473, 474, 475, 476, 477, 478, 479, 480, 481, 482, 483, 484, 485, 486, 487, 488, 489, 490, 491, 492, 493, 494, 496, 497, 499, 500, 501, 502, 503, 504, 505, 506, 507, 508, 509, 510, 511, 512, 513, 514, 515, 516, 517, 519, 520, 522, 523, 524, 526, 528, 529]

/-- The check of one row: code and Hall symbol in the default table, and in the full table. -/
def matchB (code h : String) : Option String → Option String → Bool
  | some code', some h' => code == code' && (code == "24" || h == h' ||
    tablePairs.any fun q => q.b == h && q.a == h' && (decide (q.c.q = V3.zero) || originChoiceOne.any fun c => c == code))
  | _, _ => false

theorem matched_ok : ((fullIndices.zip (Data.defaultNumberAndChoice.zip Data.defaultHallName)).all fun p =>
    matchB p.2.1 p.2.2 (Data.numberAndChoice[p.1]?) (Data.hallName[p.1]?)) = true := by decide +kernel

theorem default_matched {i : Nat} {code h : String} (h1 : defaultTable.getNumber i = some code)
    (h2 : defaultTable.getHall i = some h) :
    ∃ j h', fullTable.getNumber j = some code ∧ fullTable.getHall j = some h' ∧
      (code = "24" ∨ h = h' ∨ ∃ q ∈ tablePairs, q.a = h' ∧ q.b = h ∧ (q.c.q = V3.zero ∨ code ∈ originChoiceOne)) := by
  have hlen : fullIndices.length = 230 := by decide +kernel
  have hi := (((index_lookups defaultTable (.inr rfl)).2.2 i).2.2).1 ⟨h, h2⟩
  rw [(index_lookups defaultTable (.inr rfl)).2.1.2] at hi
  have hj : fullIndices[i]? = some fullIndices[i] := List.getElem?_eq_getElem (by omega)
  generalize fullIndices[i] = j at hj
  simp only [SpaceGroupTable.getNumber, SpaceGroupTable.getHall, defaultTable] at h1 h2
  have hm : (j, code, h) ∈ fullIndices.zip (Data.defaultNumberAndChoice.zip Data.defaultHallName) := by
    refine List.mem_of_getElem? (i := i) ?_
    rw [List.getElem?_zip_eq_some, List.getElem?_zip_eq_some]
    exact ⟨hj, h1, h2⟩
  have := List.all_eq_true.1 matched_ok _ hm
  simp only at this
  cases hc : Data.numberAndChoice[j]? with
  | none => rw [hc] at this; cases this
  | some code' =>
    cases hh' : Data.hallName[j]? with
    | none => rw [hc, hh'] at this; cases this
    | some h' =>
      rw [hc, hh'] at this
      simp only [matchB, Bool.and_eq_true, Bool.or_eq_true, List.any_eq_true, decide_eq_true_eq, beq_iff_eq] at this
      obtain ⟨rfl, e2⟩ := this
      refine ⟨j, h', hc, hh', ?_⟩
      rcases e2 with (e2 | e2) | ⟨q, hq, ⟨e2, e3⟩, e4⟩
      · exact .inl e2
      · exact .inr (.inl e2)
      · refine .inr (.inr ⟨q, hq, e3, e2, ?_⟩)
        rcases e4 with e4 | ⟨c, hc', rfl⟩
        · exact .inl e4
        · exact .inr hc'

theorem full_codes_nodup : Data.numberAndChoice.Nodup := nodup_of_codes numberCodes_eq (by decide +kernel)

/-- C52, in part: every number code of the default table occurs in the full table, in exactly one row, and the two Hall
symbols listed under it describe the same group: the same set of operations outside the 24 codes of origin choice 1 and
number 24; the same up to a change of origin in those of origin choice 1. What is missing: the same origin for the codes in
`originChoiceOne` (see `origin_choice_ignored`), and number 24 (see `tables_differ_24`). -/
theorem tables_agree_partial {i : Nat} {code h : String} (h1 : defaultTable.getNumber i = some code)
    (h2 : defaultTable.getHall i = some h) :
    ∃ j h', fullTable.getNumber j = some code ∧ fullTable.getHall j = some h' ∧
      (∀ j', fullTable.getNumber j' = some code → j' = j) ∧
      ∃ n n', HallSymbolNotation.tryFromStr h.toList = some n ∧ HallSymbolNotation.tryFromStr h'.toList = some n' ∧
        (code ≠ "24" → SameUpToOrigin n' n) ∧
        (code ≠ "24" → code ∉ originChoiceOne → ∀ f, SpaceGroup n' f ↔ SpaceGroup n f) := by
  obtain ⟨j, h', hc, hh, hcase⟩ := default_matched h1 h2
  have huniq : ∀ j', fullTable.getNumber j' = some code → j' = j := by
    intro j' hj'
    rcases Nat.lt_trichotomy j' j with hlt | rfl | hlt
    · exact absurd hj' (nodup_first full_codes_nodup hc j' hlt)
    · rfl
    · exact absurd hc (nodup_first full_codes_nodup hj' j hlt)
  refine ⟨j, h', hc, hh, huniq, ?_⟩
  obtain ⟨n, _, _, _, hn, -⟩ := tabulated_usable code h (.inr ⟨i, h1, h2⟩)
  obtain ⟨n', _, _, _, hn', -⟩ := tabulated_usable code h' (.inl ⟨j, hc, hh⟩)
  refine ⟨n, n', hn, hn', ?_⟩
  rcases hcase with rfl | rfl | ⟨q, hq, rfl, rfl, hz⟩
  · exact ⟨fun h => absurd rfl h, fun h => absurd rfl h⟩
  · rw [hn] at hn'
    obtain rfl := Option.some.inj hn'
    refine ⟨fun _ => ⟨⟨0, 0, 0⟩, fun f => ?_⟩, fun _ _ _ => Iff.rfl⟩
    have : movedBy ⟨0, 0, 0⟩ f = f := by
      funext p
      simp [movedBy]
    rw [this]
  · obtain ⟨m, m', a1, a2, a3, a4⟩ := pair_facts (.inl hq)
    rw [tryFromStr_of_parse a1] at hn'
    rw [tryFromStr_of_parse a2] at hn
    obtain rfl := Option.some.inj hn
    obtain rfl := Option.some.inj hn'
    refine ⟨fun _ => a3, fun _ ho f => a4 ?_ f⟩
    exact hz.resolve_right ho

/-- C52 is false as stated: under `48:1` the default table lists a symbol whose group contains the inversion at the origin,
the full table one whose group does not. -/
theorem origin_choice_ignored : defaultTable.getNumber 47 = some "48:1" ∧ defaultTable.getHall 47 = some "-P 2ab 2bc" ∧
    fullTable.getNumber 227 = some "48:1" ∧ fullTable.getHall 227 = some "P 2 2 -1n" ∧
    SpaceGroup (hall "-P 2ab 2bc") (fun p => ⟨-p.x, -p.y, -p.z⟩) ∧
    ¬ SpaceGroup (hall "P 2 2 -1n") (fun p => ⟨-p.x, -p.y, -p.z⟩) := by
  have h : defaultTable.getNumber 47 = some "48:1" ∧ defaultTable.getHall 47 = some "-P 2ab 2bc" ∧
    fullTable.getNumber 227 = some "48:1" ∧ fullTable.getHall 227 = some "P 2 2 -1n" := by decide +kernel
  refine ⟨h.1, h.2.1, h.2.2.1, h.2.2.2, .inversion (by decide +kernel), ?_⟩
  intro hf
  have hms : (hall "P 2 2 -1n").seitzMatrices = some (((hall "P 2 2 -1n").seitzMatrices).getD []) := by decide +kernel
  have hd := described_certList hms (by decide +kernel)
  rw [show (fun p : Pt => (⟨-p.x, -p.y, -p.z⟩ : Pt)) = M4.inversion.act from inversion_act] at hf
  obtain ⟨c, hc, hr, v, hv, hw⟩ := (hd.mem_iff _).1 hf
  revert v c
  decide +kernel

/-- C52 is false as stated: under 24 the two tables list groups that do not agree after any change of origin. -/
theorem tables_differ_24 : defaultTable.getNumber 23 = some "24" ∧ defaultTable.getHall 23 = some "I 2ac 2ab" ∧
    fullTable.getNumber 123 = some "24" ∧ fullTable.getHall 123 = some "I 2ac 2bc" ∧
    ¬ SameUpToOrigin (hall "I 2ac 2ab") (hall "I 2ac 2bc") := by
  have h : defaultTable.getNumber 23 = some "24" ∧ defaultTable.getHall 23 = some "I 2ac 2ab" ∧
    fullTable.getNumber 123 = some "24" ∧ fullTable.getHall 123 = some "I 2ac 2bc" := by decide +kernel
  refine ⟨h.1, h.2.1, h.2.2.1, h.2.2.2, ?_⟩
  intro hs
  have h1 : (hall "I 2ac 2ab").seitzMatrices = some (((hall "I 2ac 2ab").seitzMatrices).getD []) := by decide +kernel
  have h2 : (hall "I 2ac 2bc").seitzMatrices = some (((hall "I 2ac 2bc").seitzMatrices).getD []) := by decide +kernel
  have := groupKey_invariant functionals_good (described_certList h1 (by decide +kernel))
    (described_certList h2 (by decide +kernel)) hs
  revert this
  decide +kernel

/-! ## C51 -/

/-- How the enum spells a Hall symbol: `-` is `M`, `*` is `A`, `"` is `D`, a space is `_`, parentheses are left out. -/
def spelling (h : List Char) : List Char :=
  h.filterMap fun c =>
    if c = '-' then some 'M' else if c = '*' then some 'A' else if c = '"' then some 'D' else if c = ' ' then some '_'
    else if c = '(' ∨ c = ')' then none else some c

/-- Variants whose name spells another symbol of the same group, with the symbol. -/
def otherSpellings : List (Nat × String) := [(190, "A 2 -2c"), (202, "A 2 -2ac"), (211, "F 2 -2d")]

/-- Variants whose name is followed by a suffix, because their Hall symbol is listed twice. -/
def suffixed : List (Nat × String) := [(321, "_1"), (323, "_2"), (325, "_1"), (327, "_2"), (329, "_1"), (331, "_2")]

/-- `spelling`, by the codes of the characters. -/
def spellingB (h : List Char) : List Char :=
  h.filterMap fun c =>
    bif Nat.beq c.toNat 45 then some 'M' else bif Nat.beq c.toNat 42 then some 'A' else bif Nat.beq c.toNat 34 then some 'D'
    else bif Nat.beq c.toNat 32 then some '_' else bif Nat.beq c.toNat 40 || Nat.beq c.toNat 41 then none else some c

theorem spellingB_eq (h : List Char) : spellingB h = spelling h := by
  unfold spellingB spelling
  congr 1
  funext c
  have key : ∀ d : Char, Nat.beq c.toNat d.toNat = decide (c = d) := by
    intro d
    rw [Bool.eq_iff_iff, Nat.beq_eq, decide_eq_true_eq]
    exact ⟨char_toNat_inj, fun e => by rw [e]⟩
  have k1 := key '-'; have k2 := key '*'; have k3 := key '"'; have k4 := key ' '; have k5 := key '('; have k6 := key ')'
  simp only [show '-'.toNat = 45 from rfl, show '*'.toNat = 42 from rfl, show '"'.toNat = 34 from rfl, show ' '.toNat = 32 from rfl,
    show '('.toNat = 40 from rfl, show ')'.toNat = 41 from rfl] at k1 k2 k3 k4 k5 k6
  rw [k1, k2, k3, k4, k5, k6]
  simp only [Bool.cond_eq_ite, Bool.or_eq_true, decide_eq_true_eq]

/-- The name expected for a row. -/
def nameB (name h : String) (i : Nat) : Bool :=
  charsB name.toList (spellingB ((otherSpellings.lookup i).getD h).toList ++ ((suffixed.lookup i).getD "").toList)

theorem spelled_ok : ((Data.variantNames.zip Data.hallName).zipIdx.all fun p => Nat.beq p.2 123 || nameB p.1.1 p.1.2 p.2) = true := by
  decide +kernel

theorem lookup_or (l : List (Nat × String)) (i : Nat) (d : String) :
    ((l.lookup i).getD d = d ∧ ∀ p ∈ l, p.1 ≠ i) ∨ (i, (l.lookup i).getD d) ∈ l := by
  induction l with
  | nil => exact .inl ⟨rfl, by simp⟩
  | cons p l ih =>
    obtain ⟨j, s⟩ := p
    rw [List.lookup_cons]
    by_cases hij : i = j
    · subst hij
      right
      simp
    · have hb : (i == j) = false := by simpa using hij
      rw [hb]
      simp only []
      rcases ih with ⟨h1, h2⟩ | h
      · exact .inl ⟨h1, List.forall_mem_cons.2 ⟨fun e => hij e.symm, h2⟩⟩
      · exact .inr (List.mem_cons_of_mem _ h)

theorem other_spellings_same : ∀ p ∈ otherSpellings, ∃ h, fullTable.getHall p.1 = some h ∧
    ∃ q ∈ otherPairs, q.a = p.2 ∧ q.b = h ∧ q.c.q = V3.zero := by
  intro p hp
  simp only [otherSpellings, List.mem_cons, List.not_mem_nil, or_false] at hp
  rcases hp with rfl | rfl | rfl
  · exact ⟨"A 2 -2b", by decide +kernel, _, (show _ ∈ otherPairs from .tail _ (.tail _ (.head _))), rfl, rfl, rfl⟩
  · exact ⟨"A 2 -2ab", by decide +kernel, _, (show _ ∈ otherPairs from .tail _ (.tail _ (.tail _ (.head _)))), rfl, rfl, rfl⟩
  · exact ⟨"F 2 -2yd", by decide +kernel, _, (show _ ∈ otherPairs from .tail _ (.tail _ (.tail _ (.tail _ (.head _))))),
      rfl, rfl, rfl⟩

/-- C51, in part. For every variant the three lookups and the conversion succeed, the conversion is the reading of the row's
Hall symbol, and the variant's name spells (up to a suffix) a symbol of the row's group: in all but three rows the row's
Hall symbol itself. What is missing: variant 123, see `variant_123`. -/
theorem variants_name_rows_partial (v : SpaceGroupHallSymbol) :
    ∃ h hm code n, v.hallSymbol = .ok h ∧ fullTable.getHall v.val = some h ∧
      v.hmSymbol = .ok hm ∧ fullTable.getHm v.val = some hm ∧
      v.numberCode = .ok code ∧ fullTable.getNumber v.val = some code ∧
      v.toNotation = .ok n ∧ HallSymbolNotation.tryFromStr h.toList = some n ∧
      (v.val ≠ 123 →
        ∃ h' suffix n', v.name.toList = spelling h'.toList ++ suffix ∧
          ((suffix = [] ∧ ∀ p ∈ suffixed, p.1 ≠ v.val) ∨ (v.val, String.ofList suffix) ∈ suffixed) ∧
          ((h' = h ∧ ∀ p ∈ otherSpellings, p.1 ≠ v.val) ∨ (v.val, h') ∈ otherSpellings) ∧
          HallSymbolNotation.tryFromStr h'.toList = some n' ∧ ∀ f, SpaceGroup n' f ↔ SpaceGroup n f) := by
  have hv : v.val < 530 := lt_of_lt_of_eq v.isLt (by decide +kernel)
  have hlen := index_lookups fullTable (.inl rfl)
  have hv' : v.val < fullTable.halls.length := by rw [hlen.2.1.1]; exact hv
  obtain ⟨code, hc⟩ := (hlen.2.2 v.val).1.2 hv'
  obtain ⟨hm, hhm⟩ := (hlen.2.2 v.val).2.1.2 hv'
  obtain ⟨h, hh⟩ := (hlen.2.2 v.val).2.2.2 hv'
  obtain ⟨n, _, _, _, hn, -⟩ := tabulated_usable code h (.inl ⟨v.val, hc, hh⟩)
  refine ⟨h, hm, code, n, ?_, hh, ?_, hhm, ?_, hc, ?_, hn, ?_⟩
  · unfold SpaceGroupHallSymbol.hallSymbol; rw [hh]
  · unfold SpaceGroupHallSymbol.hmSymbol; rw [hhm]
  · unfold SpaceGroupHallSymbol.numberCode; rw [hc]
  · unfold SpaceGroupHallSymbol.toNotation SpaceGroupHallSymbol.hallSymbol; rw [hh]; simp only; rw [hn]
  · intro hne
    have hname : Data.variantNames[v.val]? = some v.name := by
      rw [List.getElem?_eq_getElem v.isLt]; rfl
    have hmem : ((v.name, h), v.val) ∈ (Data.variantNames.zip Data.hallName).zipIdx := by
      rw [List.mem_zipIdx_iff_getElem?, List.getElem?_zip_eq_some]
      exact ⟨hname, hh⟩
    have hk := List.all_eq_true.1 spelled_ok _ hmem
    simp only [Bool.or_eq_true, Nat.beq_eq, hne, false_or, nameB, spellingB_eq] at hk
    have hk := charsB_sound hk
    refine ⟨(otherSpellings.lookup v.val).getD h, ((suffixed.lookup v.val).getD "").toList, ?_⟩
    have hsuf := lookup_or suffixed v.val ""
    have hoth := lookup_or otherSpellings v.val h
    have hsame : ∃ n', HallSymbolNotation.tryFromStr ((otherSpellings.lookup v.val).getD h).toList = some n' ∧
        ∀ f, SpaceGroup n' f ↔ SpaceGroup n f := by
      rcases hoth with ⟨e, _⟩ | hm
      · rw [e]; exact ⟨n, hn, fun _ => Iff.rfl⟩
      · obtain ⟨h0, e0, q, hq, e1, e2, e3⟩ := other_spellings_same _ hm
        simp only at e0 e1
        rw [hh] at e0
        obtain rfl := Option.some.inj e0
        obtain ⟨m, m', a1, a2, _, a4⟩ := pair_facts (.inr hq)
        rw [e2] at a2
        rw [tryFromStr_of_parse a2] at hn
        obtain rfl := Option.some.inj hn
        rw [← e1]
        exact ⟨m, tryFromStr_of_parse a1, a4 e3⟩
    obtain ⟨n', hn', hs⟩ := hsame
    refine ⟨n', hk, ?_, ?_, hn', hs⟩
    · rw [String.ofList_toList]
      rcases hsuf with ⟨e, h2⟩ | h2
      · exact .inl ⟨by rw [e]; rfl, h2⟩
      · exact .inr h2
    · exact hoth

/-- C51 is false as stated: variant 123 is named after `I 2b 2c`, but its row holds `I 2ac 2bc`, a different group even up to a
change of origin. -/
theorem variant_123 (v : SpaceGroupHallSymbol) (hv : v.val = 123) :
    v.name.toList = spelling "I 2b 2c".toList ∧ v.hallSymbol = .ok "I 2ac 2bc" ∧
    ¬ SameUpToOrigin (hall "I 2b 2c") (hall "I 2ac 2bc") := by
  have hlen : Data.variantNames.length = 530 := by decide +kernel
  refine ⟨?_, ?_, ?_⟩
  · have h1 : Data.variantNames[123]? = some "I_2b_2c" := by decide +kernel
    have h2 : Data.variantNames[v.val]? = some v.name := by
      rw [List.getElem?_eq_getElem v.isLt]; rfl
    rw [hv, h1] at h2
    rw [← Option.some.inj h2]
    decide +kernel
  · have : fullTable.getHall 123 = some "I 2ac 2bc" := by decide +kernel
    unfold SpaceGroupHallSymbol.hallSymbol
    rw [hv, this]
  · intro hs
    have h1 : (hall "I 2b 2c").seitzMatrices = some (((hall "I 2b 2c").seitzMatrices).getD []) := by decide +kernel
    have h2 : (hall "I 2ac 2bc").seitzMatrices = some (((hall "I 2ac 2bc").seitzMatrices).getD []) := by decide +kernel
    have := groupKey_invariant functionals_good (described_certList h1 (by decide +kernel))
      (described_certList h2 (by decide +kernel)) hs
    revert this
    decide +kernel

example : spelling "P 31 2c (0 0 1)".toList = "P_31_2c_0_0_1".toList ∧ spelling "-P 3 2\"c".toList = "MP_3_2Dc".toList := by
  decide +kernel

end Verif
