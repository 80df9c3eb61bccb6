import Verif.Spec.AnyText
import Verif.Props.Parsing

/-! # What every text is read as (C78) -/

namespace Verif

theorem isAxisChar_iff (c : Char) : isAxisChar c = true ↔ c ∈ markChars := by
  simp [isAxisChar, markChars, or_assoc]

theorem isEscapable_iff (c : Char) : isEscapable c = true ↔ c ∈ escapable := by
  simp [isEscapable, escapable, or_assoc]

theorem isSubChar_iff (c : Char) : isSubChar c = true ↔ c ∈ subChars := by
  simp [isSubChar, subChars, or_assoc]

theorem isTranslationChar_iff (c : Char) : isTranslationChar c = true ↔ c ∈ translationChars := by
  simp [isTranslationChar, translationChars, or_assoc]

theorem takeEscaped_run {run t : List Char} (h : MarkRun run) (ht : NotNext ('\\' :: markChars) t) :
    takeEscaped (run ++ t) = (some run, t) := by
  induction h with
  | nil =>
    refine takeEscaped_stop fun c hc => ?_
    have := ht c hc
    simp only [List.mem_cons, not_or] at this
    exact ⟨by rw [← Bool.not_eq_true, isAxisChar_iff]; exact this.2, this.1⟩
  | mark hc _ ih => rw [List.cons_append, takeEscaped_axis _ ((isAxisChar_iff _).2 hc), ih]; rfl
  | escaped hc _ ih =>
    rw [List.cons_append, List.cons_append, takeEscaped.eq_def]
    have h1 : isAxisChar '\\' = false := by decide
    have h2 := (isEscapable_iff _).2 hc
    simp only [h1, h2, ih, Bool.false_eq_true, if_false, if_true, Option.map_some]

theorem takeEscaped_cut {run t : List Char} (h : MarkRun run) (ht : NotNext escapable t) :
    takeEscaped (run ++ '\\' :: t) = (none, t) := by
  induction h with
  | nil =>
    rw [List.nil_append, takeEscaped.eq_def]
    have h1 : isAxisChar '\\' = false := by decide
    cases t with
    | nil => simp [h1]
    | cons e t =>
      have h2 : isEscapable e = false := by rw [← Bool.not_eq_true, isEscapable_iff]; exact ht e rfl
      simp [h1, h2]
  | mark hc _ ih => rw [List.cons_append, takeEscaped_axis _ ((isAxisChar_iff _).2 hc), ih]; rfl
  | escaped hc _ ih =>
    rw [List.cons_append, List.cons_append, takeEscaped.eq_def]
    have h1 : isAxisChar '\\' = false := by decide
    have h2 := (isEscapable_iff _).2 hc
    simp only [h1, h2, ih, Bool.false_eq_true, if_false, if_true, Option.map_none]

theorem takeEscaped_cases (s : List Char) :
    ∃ run t, MarkRun run ∧
      ((NotNext ('\\' :: markChars) t ∧ s = run ++ t) ∨ (NotNext escapable t ∧ s = run ++ '\\' :: t)) := by
  generalize hn : s.length = n
  induction n using Nat.strong_induction_on generalizing s with
  | _ n ih =>
    match s, hn with
    | [], _ => exact ⟨[], [], .nil, .inl ⟨(fun c h => by cases h), rfl⟩⟩
    | c :: cs, hn =>
      simp only [List.length_cons] at hn
      by_cases h1 : c ∈ markChars
      · obtain ⟨run, t, hr, h⟩ := ih cs.length (by omega) cs rfl
        refine ⟨c :: run, t, .mark h1 hr, ?_⟩
        rcases h with ⟨h, rfl⟩ | ⟨h, rfl⟩
        · exact .inl ⟨h, rfl⟩
        · exact .inr ⟨h, rfl⟩
      · by_cases h2 : c = '\\'
        · subst h2
          match cs, hn with
          | [], _ => exact ⟨[], [], .nil, .inr ⟨(fun c h => by cases h), rfl⟩⟩
          | e :: cs, hn =>
            simp only [List.length_cons] at hn
            by_cases h3 : e ∈ escapable
            · obtain ⟨run, t, hr, h⟩ := ih cs.length (by omega) cs rfl
              refine ⟨'\\' :: e :: run, t, .escaped h3 hr, ?_⟩
              rcases h with ⟨h, rfl⟩ | ⟨h, rfl⟩
              · exact .inl ⟨h, rfl⟩
              · exact .inr ⟨h, rfl⟩
            · exact ⟨[], e :: cs, .nil, .inr ⟨(fun c h => by cases h; exact h3), rfl⟩⟩
        · refine ⟨[], c :: cs, .nil, .inl ⟨fun x h => ?_, rfl⟩⟩
          cases h
          simp [h1, h2]

theorem axisOfSlice_means (run : List Char) :
    RunMeans run ((axisOfSlice run).getD (.Z, .None)).1 ((axisOfSlice run).getD (.Z, .None)).2 := by
  unfold axisOfSlice
  split
  · exact .x
  · exact .y
  · exact .z
  · exact .quote
  · exact .dquote
  · exact .star
  · rename_i h1 h2 h3 h4 h5 h6
    refine .other fun c hc => ?_
    simp only [markChars, List.mem_cons, List.not_mem_nil, or_false] at hc
    rcases hc with rfl | rfl | rfl | rfl | rfl | rfl <;> assumption

theorem RunMeans.unique {run : List Char} {a a' : RotationAxis} {d d' : NFoldDiag} (h : RunMeans run a d)
    (h' : RunMeans run a' d') : a = a' ∧ d = d' := by
  cases h with
  | other hne =>
    cases h' <;> first
      | exact ⟨rfl, rfl⟩
      | (exfalso; refine hne _ ?_ rfl; decide)
  | _ =>
    cases h' with
    | other hne => exfalso; refine hne _ ?_ rfl; decide
    | _ => exact ⟨rfl, rfl⟩

/-- The part after the marks: subscript and letters. -/
theorem translations_read {sub : NFoldSub} {ls : List TranslationSymbol} {r : List Char}
    (hl : TranslationSymbol.Invalid ∉ ls) (h1 : NotNext translationChars r)
    (h2 : sub = .None → ls = [] → NotNext subChars r) :
    parseTranslations (subText sub ++ ls.map letterChar ++ r) =
      if sub = .None ∧ ls = [] then none else some ((sub, lettersOpt ls), r) := by
  have hrest : ∀ c, r.head? = some c → isTranslationChar c = false := fun c hc => by
    rw [← Bool.not_eq_true, isTranslationChar_iff]; exact h1 c hc
  obtain ⟨ht, hd⟩ := takeWhile_stop (letters_isTranslation hl) hrest
  by_cases hs : sub = .None
  · subst hs
    cases ls with
    | nil =>
      simp only [subText, List.map_nil, List.nil_append, and_self, if_true]
      cases r with
      | nil => rfl
      | cons c cs =>
        have h3 : isSubChar c = false := by
          rw [← Bool.not_eq_true, isSubChar_iff]; exact h2 rfl rfl c rfl
        simp [parseTranslations, h3, hrest c rfl]
    | cons t ts =>
      have hc : isTranslationChar (letterChar t) = true := letters_isTranslation hl _ (by simp)
      have hn : isSubChar (letterChar t) = false := by
        cases t <;> rfl
      have hb := letters_back hl
      simp only [List.map_cons, List.cons_append] at ht hd hb
      simp only [subText, List.nil_append, List.map_cons, List.cons_append]
      rw [parseTranslations, if_neg (by simp [hn]), if_pos hc, ht, hd]
      simp only [List.map_cons, hb]
      simp [lettersOpt]
  · have hsub : ∃ c, subText sub = [c] ∧ isSubChar c = true ∧ NFoldSub.ofChar c = sub := by
      cases sub <;> first | exact absurd rfl hs | exact ⟨_, rfl, rfl, rfl⟩
    obtain ⟨c, e1, e2, e3⟩ := hsub
    have hb := letters_back hl
    rw [e1, List.singleton_append, List.cons_append, parseTranslations, if_pos e2, ht, hd, e3]
    simp only [hb, hs, false_and, if_false]
    cases ls with
    | nil => rfl
    | cons t ts => rfl

theorem letters_exist {l : List Char} (h : ∀ c ∈ l, c ∈ translationChars) :
    ∃ ls : List TranslationSymbol, l = ls.map letterChar ∧ TranslationSymbol.Invalid ∉ ls := by
  induction l with
  | nil => exact ⟨[], rfl, by simp⟩
  | cons c l ih =>
    obtain ⟨ls, rfl, hl⟩ := ih fun x hx => h x (List.mem_cons_of_mem _ hx)
    have hc := h c (List.mem_cons_self ..)
    have : ∃ t, letterChar t = c ∧ t ≠ .Invalid := by
      simp only [translationChars, List.mem_cons, List.not_mem_nil, or_false] at hc
      rcases hc with rfl | rfl | rfl | rfl | rfl | rfl | rfl | rfl
      exacts [⟨.A, rfl, by decide⟩, ⟨.B, rfl, by decide⟩, ⟨.C, rfl, by decide⟩, ⟨.N, rfl, by decide⟩,
        ⟨.U, rfl, by decide⟩, ⟨.V, rfl, by decide⟩, ⟨.W, rfl, by decide⟩, ⟨.D, rfl, by decide⟩]
    obtain ⟨t, rfl, ht⟩ := this
    exact ⟨t :: ls, rfl, by simp [hl, ht.symm]⟩

theorem letters_split (s : List Char) : ∃ (ls : List TranslationSymbol) (r : List Char),
    s = ls.map letterChar ++ r ∧ TranslationSymbol.Invalid ∉ ls ∧ NotNext translationChars r := by
  have h1 : ∀ c ∈ s.takeWhile isTranslationChar, c ∈ translationChars := fun c hc =>
    (isTranslationChar_iff c).1 (List.mem_takeWhile_imp hc)
  obtain ⟨ls, e, hl⟩ := letters_exist h1
  refine ⟨ls, s.dropWhile isTranslationChar, ?_, hl, ?_⟩
  · rw [← e]; exact List.takeWhile_append_dropWhile.symm
  · intro c hc
    have : isTranslationChar c = false := by
      have := List.head?_dropWhile_not isTranslationChar s
      rw [hc] at this
      simpa using this
    rw [← isTranslationChar_iff]
    simp [this]

theorem translations_split (s : List Char) : ∃ (sub : NFoldSub) (ls : List TranslationSymbol) (r : List Char),
    s = subText sub ++ ls.map letterChar ++ r ∧ TranslationSymbol.Invalid ∉ ls ∧ NotNext translationChars r ∧
    (sub = .None → ls = [] → NotNext subChars r) := by
  by_cases h : ∃ c t, s = c :: t ∧ c ∈ subChars
  · obtain ⟨c, t, rfl, hc⟩ := h
    obtain ⟨ls, r, rfl, hl, hr⟩ := letters_split t
    have : ∃ sub, subText sub = [c] ∧ sub ≠ .None := by
      simp only [subChars, List.mem_cons, List.not_mem_nil, or_false] at hc
      rcases hc with rfl | rfl | rfl | rfl | rfl
      exacts [⟨.N1, rfl, by decide⟩, ⟨.N2, rfl, by decide⟩, ⟨.N3, rfl, by decide⟩, ⟨.N4, rfl, by decide⟩,
        ⟨.N5, rfl, by decide⟩]
    obtain ⟨sub, e, hs⟩ := this
    exact ⟨sub, ls, r, by rw [e]; rfl, hl, hr, fun e' => absurd e' hs⟩
  · obtain ⟨ls, r, e, hl, hr⟩ := letters_split s
    refine ⟨.None, ls, r, by simpa [subText] using e, hl, hr, fun _ e' c hc hc' => h ?_⟩
    subst e'
    cases r with
    | nil => cases hc
    | cons d r => cases hc; exact ⟨c, r, e, hc'⟩

/-- Sign and order at the head of a text. -/
theorem fold_split {s r : List Char} {minus : Bool} {f : NFold} :
    parseFold s = some ((minus, f), r) ↔ f ≠ .Invalid ∧ s = (if minus then ['-'] else []) ++ foldChar f :: r := by
  constructor
  · intro h
    refine ⟨(parseFold_consumes h).2.2, ?_⟩
    unfold parseFold at h
    split at h <;> first | (cases h; rfl) | cases h
  · rintro ⟨hf, rfl⟩
    exact parseFold_text minus hf r

theorem build_eq (sign : Bool) (f : NFold) (ax : Option (RotationAxis × NFoldDiag)) (sub : NFoldSub)
    (ls : List TranslationSymbol) (t r : List Char)
    (ht : parseTranslations t = if sub = .None ∧ ls = [] then none else some ((sub, lettersOpt ls), r))
    (hr : sub = .None ∧ ls = [] → t = r) :
    (match (ax, t) with
      | (some (axis, diag), r') =>
        match parseTranslations r' with
        | some ((sub, trs), r'') =>
          (MatrixSymbolBuilder.build
            { minusSign := some sign, nfoldBody := some f, rotationAxis := some axis, nfoldDiag := some diag,
              nfoldSub := some sub, translationSymbols := trs }, r'')
        | none =>
          (MatrixSymbolBuilder.build
            { minusSign := some sign, nfoldBody := some f, rotationAxis := some axis, nfoldDiag := some diag }, r')
      | (none, r') =>
        match parseTranslations r' with
        | some ((sub, trs), r'') =>
          (MatrixSymbolBuilder.build
            { minusSign := some sign, nfoldBody := some f, nfoldSub := some sub, translationSymbols := trs }, r'')
        | none =>
          (MatrixSymbolBuilder.build { minusSign := some sign, nfoldBody := some f }, r')) =
    (some ⟨sign, f, sub, (ax.getD (.Z, .None)).2, (ax.getD (.Z, .None)).1, lettersOpt ls⟩, r) := by
  by_cases hn : sub = .None ∧ ls = []
  · rw [if_pos hn] at ht
    obtain rfl := hr hn
    obtain ⟨rfl, rfl⟩ := hn
    cases ax with
    | none => simp only [ht]; rfl
    | some a => obtain ⟨a, d⟩ := a; simp only [ht]; rfl
  · rw [if_neg hn] at ht
    cases ax with
    | none => simp only [ht]; rfl
    | some a => obtain ⟨a, d⟩ := a; simp only [ht]; rfl

theorem symbolAt_read {s r : List Char} {m : MatrixSymbol} (h : SymbolAt s m r) : parseMatrixSymbol s = (some m, r) := by
  obtain ⟨b, run, letters, t, ls, hb, hf, hrun, hs, ht, rfl, hl, htr, h1, h2⟩ := h
  obtain ⟨sign, f, sub, diag, axis, trs⟩ := m
  simp only at hf hs ht htr h2
  have hp := translations_read hl h1 h2
  rw [← ht] at hp
  have hr : sub = .None ∧ ls = [] → t = r := by rintro ⟨rfl, rfl⟩; simpa [subText] using ht
  have hspace : ∀ u, space0 (b ++ ((if sign then ['-'] else []) ++ foldChar f :: u)) =
      (if sign then ['-'] else []) ++ foldChar f :: u := by
    intro u
    rw [space0_append hb]
    cases sign
    · exact space0_nonblank (by cases f <;> rfl) u
    · exact space0_nonblank rfl _
  unfold parseMatrixSymbol parseSignFold
  rcases hs with ⟨hn, hm, rfl⟩ | ⟨hn, rfl, rfl, rfl⟩
  · simp only [hspace, parseFold_text sign hf, parseAxis, takeEscaped_run hrun hn, Option.bind_some]
    refine Eq.trans (build_eq sign f (axisOfSlice run) sub ls t r hp hr) ?_
    obtain ⟨e1, e2⟩ := hm.unique (axisOfSlice_means run)
    rw [htr, ← e1, ← e2]; rfl
  · simp only [hspace, parseFold_text sign hf, parseAxis, takeEscaped_cut hrun hn, Option.bind_none]
    refine Eq.trans (build_eq sign f none sub ls t r hp hr) ?_
    rw [htr]; rfl

theorem space0_split (s : List Char) : ∃ b, (∀ c ∈ b, Blank c) ∧ s = b ++ space0 s :=
  ⟨s.takeWhile isBlank, fun c hc => (isBlank_iff c).1 (List.mem_takeWhile_imp hc),
    List.takeWhile_append_dropWhile.symm⟩

theorem symbolAt_exists {s : List Char} {minus : Bool} {f : NFold} {u : List Char}
    (h : parseFold (space0 s) = some ((minus, f), u)) : ∃ m r, SymbolAt s m r := by
  obtain ⟨hf, e⟩ := fold_split.1 h
  obtain ⟨b, hb, es⟩ := space0_split s
  rw [e] at es
  obtain ⟨run, t, hrun, hc⟩ := takeEscaped_cases u
  obtain ⟨sub, ls, r, et, hl, h1, h2⟩ := translations_split t
  rcases hc with ⟨hn, rfl⟩ | ⟨hn, rfl⟩
  · exact ⟨⟨minus, f, sub, ((axisOfSlice run).getD (.Z, .None)).2, ((axisOfSlice run).getD (.Z, .None)).1, lettersOpt ls⟩,
      r, b, run, _, t, ls, hb, hf, hrun, .inl ⟨hn, axisOfSlice_means run, es⟩, et, rfl, hl, rfl, h1, h2⟩
  · exact ⟨⟨minus, f, sub, .None, .Z, lettersOpt ls⟩,
      r, b, run, _, t, ls, hb, hf, hrun, .inr ⟨hn, rfl, rfl, es⟩, et, rfl, hl, rfl, h1, h2⟩

/-- C78. `MatrixSymbol::try_from_str` on every text: it returns the symbol the text begins with and leaves what follows;
it fails exactly when the text begins with no symbol, and then only leading blanks are gone. -/
theorem matrix_symbol_exact (s : List Char) :
    (∀ m r, parseMatrixSymbol s = (some m, r) ↔ SymbolAt s m r) ∧
    (∀ r, parseMatrixSymbol s = (none, r) ↔ NoSymbolAt s r) := by
  constructor
  · intro m r
    refine ⟨fun h => ?_, symbolAt_read⟩
    rcases parseMatrixSymbol_cases s with ⟨_, h'⟩ | ⟨sg, f, u, m', r', hf, h', _⟩
    · rw [h'] at h; cases h
    · obtain ⟨m2, r2, hs⟩ := symbolAt_exists hf
      have := symbolAt_read hs
      rw [h] at this
      cases this
      exact hs
  · intro r
    constructor
    · intro h
      obtain ⟨rfl, hn⟩ := parseMatrixSymbol_fail h
      obtain ⟨b, hb, e⟩ := space0_split s
      refine ⟨b, hb, e, ?_, ?_⟩
      · intro c hc
        have := List.head?_dropWhile_not isBlank s
        unfold space0 at hc
        rw [hc] at this
        simp only [] at this
        intro hm
        have hb : isBlank c = true := (isBlank_iff c).2 (by simpa [Blank] using hm)
        rw [hb] at this
        simp at this
      · intro minus f t hf e'
        have := fold_split.2 ⟨hf, e'⟩
        rw [hn] at this; cases this
    · rintro ⟨b, hb, rfl, hr, hn⟩
      have hsp : space0 (b ++ r) = r := by
        rw [space0_append hb]
        cases r with
        | nil => rfl
        | cons c r =>
          refine space0_nonblank ?_ r
          have := hr c rfl
          rw [← Bool.not_eq_true, isBlank_iff]
          simpa [Blank] using this
      rcases parseMatrixSymbol_cases (b ++ r) with ⟨_, h'⟩ | ⟨sg, f, u, m', r', hf, h', _⟩
      · rw [h', hsp]
      · rw [hsp] at hf
        obtain ⟨h1, h2⟩ := fold_split.1 hf
        exact absurd h2 (hn sg f u h1)

theorem symbolsAt_iff {s r : List Char} {ms : List MatrixSymbol} : SymbolsAt s ms r ↔ ReadsSymbols s ms r := by
  constructor
  · intro h
    induction h with
    | stop h => exact .stop (((matrix_symbol_exact _).2 _).2 h)
    | next h _ ih => exact .next (((matrix_symbol_exact _).1 _ _).2 h) ih
  · intro h
    induction h with
    | stop h => exact .stop (((matrix_symbol_exact _).2 _).1 h)
    | next h _ ih => exact .next (((matrix_symbol_exact _).1 _ _).1 h) ih

theorem ShiftAt_iff (rest : List Char) (o : OriginShift) :
    ShiftAt rest o ↔ ∃ junk, parseOriginShift rest = some (o, junk) := by
  constructor
  · rintro (⟨a, b, c, junk, h, rfl⟩ | ⟨h, rfl⟩)
    · exact ⟨junk, parseOriginShift_three h⟩
    · refine ⟨rest, ?_⟩
      have : parseShiftList rest = none := by
        cases e : parseShiftList rest with
        | none => rfl
        | some x =>
          obtain ⟨vs, r⟩ := x
          obtain ⟨h1, h2⟩ := (parseShiftList_iff _ _ _).1 e
          have := h vs r h2
          omega
      unfold parseOriginShift
      rw [this]
      rfl
  · rintro ⟨junk, h⟩
    unfold parseOriginShift at h
    split at h
    · rename_i a b c r e
      cases h
      exact .inl ⟨a, b, c, junk, ((parseShiftList_iff _ _ _).1 e).2, rfl⟩
    · cases h
    · rename_i e
      cases h
      refine .inr ⟨fun vs junk' hv => ?_, rfl⟩
      by_contra hlen
      have := (parseShiftList_iff rest vs junk').2 ⟨by omega, hv⟩
      rw [e] at this; cases this

theorem Defaulted.unique {i : Nat} {f : NFold} {m a b : MatrixSymbol} (h : Defaulted i f m a) (h' : Defaulted i f m b) :
    a = b := by
  obtain ⟨⟨h1, h2, h3, h4⟩, h5, h6⟩ := h
  obtain ⟨⟨k1, k2, k3, k4⟩, k5, k6⟩ := h'
  obtain ⟨a1, a2, a3, a4, a5, a6⟩ := a
  obtain ⟨b1, b2, b3, b4, b5, b6⟩ := b
  simp only at *
  subst h1 h2 h3 h4 h5 h6 k1 k2 k3 k4 k5 k6
  rfl

theorem restore_length (ms : List MatrixSymbol) : (restore ms).length = ms.length := by
  match ms with
  | [] => rfl
  | [_] => rfl
  | [_, _] => rfl
  | _ :: _ :: _ :: _ => simp [restore]

theorem defaulted_first (m : MatrixSymbol) (f : NFold) : Defaulted 0 f m (restoreFirst m) := by
  obtain ⟨a, b, c, d, e, g⟩ := m
  unfold restoreFirst
  refine ⟨?_, ?_, ?_⟩ <;> cases e <;> simp

theorem defaulted_second (m : MatrixSymbol) (f : NFold) : Defaulted 1 f m (restoreSecond f m) := by
  obtain ⟨a, b, c, d, e, g⟩ := m
  unfold restoreSecond
  refine ⟨?_, ?_, ?_⟩ <;> cases b <;> cases f <;> simp

theorem defaulted_third (m : MatrixSymbol) (f : NFold) : Defaulted 2 f m (restoreThird m) := by
  obtain ⟨a, b, c, d, e, g⟩ := m
  unfold restoreThird
  refine ⟨?_, ?_, ?_⟩ <;> cases b <;> simp

theorem defaulted_later (m : MatrixSymbol) (f : NFold) (i : Nat) : Defaulted (i + 3) f m m := by
  refine ⟨⟨rfl, rfl, rfl, rfl⟩, ?_, ?_⟩ <;> simp

theorem restore_defaulted {ms : List MatrixSymbol} {i : Nat} {m m' first : MatrixSymbol} (h0 : ms[0]? = some first)
    (h : ms[i]? = some m) (h' : (restore ms)[i]? = some m') : Defaulted i first.nfoldBody m m' := by
  match ms, h0 with
  | [a], h0 =>
    cases h0
    match i, h, h' with
    | 0, h, h' => cases h; cases h'; exact defaulted_first _ _
  | [a, b], h0 =>
    cases h0
    match i, h, h' with
    | 0, h, h' => cases h; cases h'; exact defaulted_first _ _
    | 1, h, h' => cases h; cases h'; exact defaulted_second _ _
  | a :: b :: c :: rest, h0 =>
    cases h0
    match i, h, h' with
    | 0, h, h' => cases h; cases h'; exact defaulted_first _ _
    | 1, h, h' => cases h; cases h'; exact defaulted_second _ _
    | 2, h, h' => cases h; cases h'; exact defaulted_third _ _
    | i + 3, h, h' =>
      simp only [restore, List.getElem?_cons_succ] at h h'
      rw [h] at h'
      cases h'
      exact defaulted_later _ _ _

/-- C78. `HallSymbolNotation::try_from_str` on every text: it returns the notation the text stands for, and fails exactly
when the text stands for none. -/
theorem parse_exact (s : List Char) :
    (∀ n, HallSymbolNotation.tryFromStr s = some n ↔ StandsFor s n) ∧
    (HallSymbolNotation.tryFromStr s = none ↔ ¬ ∃ n, StandsFor s n) := by
  have key : ∀ n, HallSymbolNotation.tryFromStr s = some n ↔ StandsFor s n := by
    intro n
    unfold HallSymbolNotation.tryFromStr
    constructor
    · intro h
      obtain ⟨⟨n', junk⟩, h, rfl⟩ := Option.map_eq_some_iff.1 h
      unfold parseHallSymbol at h
      split at h
      · cases h
      · rename_i l r hl
        split at h
        · cases h
        · rename_i ms r' hs
          split at h
          · cases h
          · rename_i o r'' ho
            cases h
            obtain ⟨minus, l⟩ := l
            obtain ⟨ms', rest', e, hr⟩ := parseSymbols_reads (Nat.lt_succ_self r.length)
            rw [hs] at e
            cases e
            refine ⟨r, r', ms, (parseLatticeSymbol_iff _ _ _ _).1 hl, symbolsAt_iff.2 hr, restore_length ms, ?_,
              (ShiftAt_iff _ _).2 ⟨_, ho⟩⟩
            intro i m m' first h0 h1 h2
            exact restore_defaulted h0 h1 h2
    · rintro ⟨r, rest, ms, hs, hr, hlen, hd, ho⟩
      obtain ⟨junk, ho⟩ := (ShiftAt_iff _ _).1 ho
      rw [parseHallSymbol_eq hs (symbolsAt_iff.1 hr), ho]
      obtain ⟨⟨minus, l⟩, nms, no⟩ := n
      simp only at hlen hd
      have : nms = restore ms := by
        refine List.ext_getElem (by rw [hlen, restore_length]) fun i i1 i2 => ?_
        have i3 : i < ms.length := by omega
        have i0 : 0 < ms.length := by omega
        have d1 := hd i ms[i] nms[i] ms[0] (List.getElem?_eq_getElem i0) (List.getElem?_eq_getElem i3)
          (List.getElem?_eq_getElem i1)
        have d2 := restore_defaulted (List.getElem?_eq_getElem i0) (List.getElem?_eq_getElem i3)
          (List.getElem?_eq_getElem i2)
        exact d1.unique d2
      rw [this]; rfl
  refine ⟨key, ?_⟩
  constructor
  · rintro h ⟨n, hn⟩
    rw [(key n).2 hn] at h; cases h
  · intro h
    cases e : HallSymbolNotation.tryFromStr s with
    | none => rfl
    | some n => exact absurd ⟨n, (key n).1 e⟩ h

/-- C78. `LatticeSymbol::try_from_str`: exactly the written lattice symbols are read, nothing more is consumed, and a
printed lattice symbol is read back. `OriginShift::try_from_str`: a printed shift is read back. -/
theorem component_roundtrip (l : LatticeSymbol) (a b c : Int) (r : List Char) :
    (∀ s r', parseLatticeSymbol s = some (l, r') ↔ s = l.text ++ r') ∧
    parseOriginShift ((OriginShift.new a b c).text ++ r) = some ((OriginShift.new a b c), r) := by
  constructor
  · intro s r'
    obtain ⟨minus, l⟩ := l
    rw [parseLatticeSymbol_iff]
    have : LatticeSymbol.text ⟨minus, l⟩ = latticeText minus l := by
      cases minus <;> cases l <;> rfl
    rw [this]
  · have h := shift_printed a b c r
    have e : parseShiftList (' ' :: (OriginShift.new a b c).text ++ r) =
        parseShiftList ((OriginShift.new a b c).text ++ r) := by
      unfold parseShiftList
      rw [List.cons_append, show space0 (' ' :: ((OriginShift.new a b c).text ++ r)) =
        space0 ((OriginShift.new a b c).text ++ r) from rfl]
    have h2 := (parseShiftList_iff _ _ _).2 ⟨by simp, h⟩
    rw [e] at h2
    unfold parseOriginShift
    rw [h2]
    simp only [(shift_normalised_partial a b c).2.1]

/-- A text with a run of marks, a stray backslash, a subscript and letters, junk and no shift; and one that stands for
nothing. -/
example : (HallSymbolNotation.tryFromStr "-C 2xy1a 3\\\"\\? 2\" junk (1)".toList).map HallSymbolNotation.text =
      some "-C 21a 3".toList ∧
    parseMatrixSymbol " 3\\\"\\5ab? 2".toList = (some ⟨false, .N3, .N5, .None, .Z, some [.A, .B]⟩, "? 2".toList) ∧
    HallSymbolNotation.tryFromStr "P 2\\(4)".toList = none := by decide +kernel

/-- The specification on the second text, without the parser. -/
example : SymbolAt [' ', '3', '\\', '"', '\\', '5', 'a', 'b', '?', ' ', '2']
    ⟨false, .N3, .N5, .None, .Z, some [.A, .B]⟩ ['?', ' ', '2'] :=
  ⟨[' '], ['\\', '"'], ['a', 'b'], ['5', 'a', 'b', '?', ' ', '2'], [.A, .B], fun c h => Or.inl (List.mem_singleton.1 h),
    by decide, .escaped (by decide) .nil, .inr ⟨fun c h => by cases h; decide, rfl, rfl, rfl⟩, rfl, rfl, by decide, rfl,
    fun c h => by cases h; decide, fun h => by cases h⟩

end Verif
