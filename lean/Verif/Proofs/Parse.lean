import Mathlib.Data.List.TakeWhile
import Mathlib.Tactic.IntervalCases
import Verif.Model.Parser
import Verif.Spec.Syntax
import Verif.Spec.Reading

/-! # Lemmas about the parser -/

namespace Verif

theorem isBlank_iff (c : Char) : isBlank c = true ↔ Blank c := by simp [isBlank, Blank]

/-- The next character cannot continue a matrix symbol. -/
def Stops (rest : List Char) : Prop :=
  ∀ c, rest.head? = some c → isAxisChar c = false ∧ c ≠ '\\' ∧ isSubChar c = false ∧ isTranslationChar c = false

theorem stops_nil : Stops [] := fun _ h => by cases h

theorem stops_blank {c : Char} (h : Blank c) (rest : List Char) : Stops (c :: rest) := by
  intro d hd
  cases hd
  rcases h with rfl | rfl <;> decide

theorem stops_paren (rest : List Char) : Stops ('(' :: rest) := by
  intro d hd
  cases hd
  decide

theorem space0_append {b : List Char} (hb : ∀ c ∈ b, Blank c) (s : List Char) : space0 (b ++ s) = space0 s := by
  unfold space0
  exact List.dropWhile_append_of_pos fun c hc => (isBlank_iff c).2 (hb c hc)

theorem space0_nonblank {c : Char} (h : isBlank c = false) (s : List Char) : space0 (c :: s) = c :: s := by
  simp [space0, h]

theorem space0_idem (s : List Char) : space0 (space0 s) = space0 s := by
  induction s with
  | nil => rfl
  | cons c s ih =>
    cases h : isBlank c with
    | true =>
      have : space0 (c :: s) = space0 s := by simp [space0, h]
      rw [this, ih]
    | false => rw [space0_nonblank h, space0_nonblank h]

theorem space0_suffix (s : List Char) : space0 s <:+ s := List.dropWhile_suffix _

theorem parseFold_text (minus : Bool) {f : NFold} (hf : f ≠ .Invalid) (r : List Char) :
    parseFold ((if minus then ['-'] else []) ++ foldChar f :: r) = some ((minus, f), r) := by
  cases minus <;> cases f <;> first | rfl | exact absurd rfl hf

theorem takeEscaped_axis {c : Char} (cs : List Char) (h : isAxisChar c = true) :
    takeEscaped (c :: cs) = ((takeEscaped cs).1.map (c :: ·), (takeEscaped cs).2) := by
  rw [takeEscaped.eq_def]
  simp only [h, if_true]

theorem takeEscaped_stop {rest : List Char} (h : ∀ c, rest.head? = some c → isAxisChar c = false ∧ c ≠ '\\') :
    takeEscaped rest = (some [], rest) := by
  cases rest with
  | nil => rw [takeEscaped]
  | cons c cs =>
    obtain ⟨h1, h2⟩ := h c rfl
    rw [takeEscaped.eq_def]
    simp only [h1, Bool.false_eq_true, if_false, if_neg h2]

/-- What each axis mark stands for before the default-axis rules. -/
def AxisMark.raw : AxisMark → RotationAxis × NFoldDiag
  | .x => (.X, .None)
  | .y => (.Y, .None)
  | .z => (.Z, .None)
  | .quote => (.Omitted, .SingleQuote)
  | .dquote => (.Omitted, .DoubleQuote)
  | .star => (.Omitted, .Asterisk)

/-- What a run of marks is read as: a single mark counts, anything else does not. -/
def marksRaw : List AxisMark → Option (RotationAxis × NFoldDiag)
  | [a] => some a.raw
  | _ => none

theorem takeEscaped_marks (marks : List AxisMark) {rest : List Char}
    (h : ∀ c, rest.head? = some c → isAxisChar c = false ∧ c ≠ '\\') :
    takeEscaped (marks.map AxisMark.char ++ rest) = (some (marks.map AxisMark.char), rest) := by
  induction marks with
  | nil => exact takeEscaped_stop h
  | cons a marks ih =>
    rw [List.map_cons, List.cons_append, takeEscaped_axis _ (by cases a <;> rfl), ih]
    rfl

theorem parseAxis_marks (marks : List AxisMark) {rest : List Char}
    (h : ∀ c, rest.head? = some c → isAxisChar c = false ∧ c ≠ '\\') :
    parseAxis (marks.map AxisMark.char ++ rest) = (marksRaw marks, rest) := by
  unfold parseAxis
  rw [takeEscaped_marks marks h]
  match marks with
  | [] => rfl
  | [a] => cases a <;> rfl
  | a :: b :: l => cases a <;> rfl

theorem letters_isTranslation {ls : List TranslationSymbol} (h : TranslationSymbol.Invalid ∉ ls) :
    ∀ c ∈ ls.map letterChar, isTranslationChar c = true := by
  intro c hc
  obtain ⟨t, ht, rfl⟩ := List.mem_map.1 hc
  cases t <;> first | rfl | exact absurd ht h

theorem letters_back {ls : List TranslationSymbol} (h : TranslationSymbol.Invalid ∉ ls) :
    (ls.map letterChar).map TranslationSymbol.ofChar = ls := by
  induction ls with
  | nil => rfl
  | cons t ts ih =>
    rw [List.map_cons, List.map_cons, ih fun hm => h (List.mem_cons_of_mem _ hm)]
    congr 1
    cases t <;> first | rfl | exact absurd (List.mem_cons_self ..) h

theorem takeWhile_stop {p : Char → Bool} {l rest : List Char} (hl : ∀ c ∈ l, p c = true)
    (hr : ∀ c, rest.head? = some c → p c = false) :
    (l ++ rest).takeWhile p = l ∧ (l ++ rest).dropWhile p = rest := by
  rw [List.takeWhile_append_of_pos hl, List.dropWhile_append_of_pos hl]
  cases rest with
  | nil => simp
  | cons c cs =>
    have := hr c rfl
    simp [this]

/-- The translation list built from the letters. -/
def lettersOpt (ls : List TranslationSymbol) : Option (List TranslationSymbol) := if ls = [] then none else some ls

theorem parseTranslations_text (sub : NFoldSub) {ls : List TranslationSymbol} (h : TranslationSymbol.Invalid ∉ ls)
    {rest : List Char} (hr : Stops rest) :
    parseTranslations (subText sub ++ ls.map letterChar ++ rest) =
      if sub = .None ∧ ls = [] then none else some ((sub, lettersOpt ls), rest) := by
  have hrest : ∀ c, rest.head? = some c → isTranslationChar c = false := fun c hc => (hr c hc).2.2.2
  obtain ⟨ht, hd⟩ := takeWhile_stop (letters_isTranslation h) hrest
  by_cases hs : sub = .None
  · subst hs
    cases ls with
    | nil =>
      simp only [subText, List.map_nil, List.nil_append, and_self, if_true]
      cases rest with
      | nil => rfl
      | cons c cs =>
        obtain ⟨_, _, h3, h4⟩ := hr c rfl
        simp [parseTranslations, h3, h4]
    | cons t ts =>
      have hc : isTranslationChar (letterChar t) = true := letters_isTranslation h _ (by simp)
      have hn : isSubChar (letterChar t) = false := by
        cases t <;> first | rfl | exact absurd (List.mem_cons_self ..) h
      have hb := letters_back h
      simp only [List.map_cons, List.cons_append] at ht hd hb
      simp only [subText, List.nil_append, List.map_cons, List.cons_append]
      rw [parseTranslations, if_neg (by simp [hn]), if_pos hc, ht, hd]
      simp only [List.map_cons, hb]
      simp [lettersOpt]
  · have hsub : ∃ c, subText sub = [c] ∧ isSubChar c = true ∧ NFoldSub.ofChar c = sub := by
      cases sub <;> first | exact absurd rfl hs | exact ⟨_, rfl, rfl, rfl⟩
    obtain ⟨c, h1, h2, h3⟩ := hsub
    have hb := letters_back h
    rw [h1, List.singleton_append, List.cons_append, parseTranslations, if_pos h2, ht, hd, h3]
    simp only [hb, hs, false_and, if_false]
    cases ls with
    | nil => rfl
    | cons t ts => rfl

/-- The matrix symbol read from a written symbol, before the default-axis rules. -/
def Written.raw (w : Written) : MatrixSymbol where
  minusSign := w.minus
  nfoldBody := w.fold
  nfoldSub := w.sub
  nfoldDiag := match w.axis with | some a => a.raw.2 | none => .None
  rotationAxis := match w.axis with | some a => a.raw.1 | none => .Z
  translationSymbols := lettersOpt w.letters

theorem stops_after_axis (sub : NFoldSub) {ls : List TranslationSymbol} (h : TranslationSymbol.Invalid ∉ ls)
    {rest : List Char} (hr : Stops rest) :
    ∀ c, (subText sub ++ ls.map letterChar ++ rest).head? = some c → isAxisChar c = false ∧ c ≠ '\\' := by
  intro c hc
  cases sub with
  | None =>
    cases ls with
    | nil => exact ⟨(hr c hc).1, (hr c hc).2.1⟩
    | cons t ts =>
      cases hc
      cases t <;> first | decide | exact absurd (List.mem_cons_self ..) h
  | _ => cases hc; decide

/-- The text of a symbol with an arbitrary run of marks. -/
def symbolText (minus : Bool) (f : NFold) (marks : List AxisMark) (sub : NFoldSub) (ls : List TranslationSymbol) :
    List Char :=
  (if minus then ['-'] else []) ++ foldChar f :: (marks.map AxisMark.char ++ (subText sub ++ ls.map letterChar))

/-- The matrix symbol read from it. -/
def symbolRead (minus : Bool) (f : NFold) (marks : List AxisMark) (sub : NFoldSub) (ls : List TranslationSymbol) :
    MatrixSymbol where
  minusSign := minus
  nfoldBody := f
  nfoldSub := sub
  nfoldDiag := ((marksRaw marks).getD (.Z, .None)).2
  rotationAxis := ((marksRaw marks).getD (.Z, .None)).1
  translationSymbols := lettersOpt ls

theorem parseMatrixSymbol_marks (minus : Bool) {f : NFold} (hf : f ≠ .Invalid) (marks : List AxisMark) (sub : NFoldSub)
    {ls : List TranslationSymbol} (hl : TranslationSymbol.Invalid ∉ ls) {b rest : List Char} (hb : ∀ c ∈ b, Blank c)
    (hr : Stops rest) :
    parseMatrixSymbol (b ++ symbolText minus f marks sub ls ++ rest) = (some (symbolRead minus f marks sub ls), rest) := by
  have hfold : parseSignFold (b ++ symbolText minus f marks sub ls ++ rest) =
      (some (minus, f), marks.map AxisMark.char ++ (subText sub ++ ls.map letterChar ++ rest)) := by
    unfold parseSignFold
    rw [List.append_assoc, space0_append hb]
    have hs : ∀ r, space0 ((if minus then ['-'] else []) ++ foldChar f :: r) = (if minus then ['-'] else []) ++ foldChar f :: r := by
      intro r
      cases minus
      · exact space0_nonblank (by cases f <;> rfl) r
      · exact space0_nonblank rfl _
    have e : symbolText minus f marks sub ls ++ rest = (if minus then ['-'] else []) ++ foldChar f ::
        (marks.map AxisMark.char ++ (subText sub ++ ls.map letterChar ++ rest)) := by
      simp [symbolText]
    rw [e, hs]
    simp only [parseFold_text minus hf]
  unfold parseMatrixSymbol
  rw [hfold]
  simp only []
  rw [parseAxis_marks marks (stops_after_axis sub hl hr)]
  unfold symbolRead
  cases marksRaw marks with
  | none =>
    simp only []
    rw [parseTranslations_text sub hl hr]
    split
    · rename_i heq
      split at heq
      · cases heq
      · cases heq; rfl
    · rename_i heq
      split at heq
      · rename_i hn
        obtain ⟨rfl, rfl⟩ := hn
        rfl
      · cases heq
  | some a =>
    obtain ⟨ax, d⟩ := a
    simp only []
    rw [parseTranslations_text sub hl hr]
    split
    · rename_i heq
      split at heq
      · cases heq
      · cases heq; rfl
    · rename_i heq
      split at heq
      · rename_i hn
        obtain ⟨rfl, rfl⟩ := hn
        rfl
      · cases heq

theorem parseMatrixSymbol_text {w : Written} (hw : w.Valid) {b rest : List Char} (hb : ∀ c ∈ b, Blank c)
    (hr : Stops rest) : parseMatrixSymbol (b ++ w.text ++ rest) = (some w.raw, rest) := by
  obtain ⟨minus, f, axis, sub, ls⟩ := w
  have := parseMatrixSymbol_marks minus hw.1 axis.toList sub hw.2 hb hr
  cases axis with
  | none =>
    have e : Written.text ⟨minus, f, none, sub, ls⟩ = symbolText minus f [] sub ls := by simp [Written.text, symbolText]
    rw [e]
    exact this
  | some a =>
    have e : Written.text ⟨minus, f, some a, sub, ls⟩ = symbolText minus f [a] sub ls := by simp [Written.text, symbolText]
    rw [e]
    exact this

/-! ## Consumption -/

theorem parseFold_consumes {s r : List Char} {v : Bool × NFold} (h : parseFold s = some (v, r)) :
    r <:+ s ∧ r.length < s.length ∧ v.2 ≠ .Invalid := by
  unfold parseFold at h
  split at h <;> first
    | (cases h
       refine ⟨?_, by simp only [List.length_cons]; omega, by decide⟩
       first
         | exact List.suffix_cons _ _
         | exact (List.suffix_cons _ _).trans (List.suffix_cons _ _))
    | cases h

theorem takeEscaped_suffix (s : List Char) : (takeEscaped s).2 <:+ s := by
  generalize hn : s.length = n
  induction n using Nat.strong_induction_on generalizing s with
  | _ n ih =>
    rw [takeEscaped.eq_def]
    split
    · exact List.suffix_refl _
    · rename_i c cs
      simp only [List.length_cons] at hn
      split
      · exact (ih cs.length (by omega) cs rfl).trans (List.suffix_cons _ _)
      · split
        · split
          · exact List.nil_suffix
          · rename_i e cs'
            simp only [List.length_cons] at hn
            split
            · exact ((ih cs'.length (by omega) cs' rfl).trans (List.suffix_cons _ _)).trans (List.suffix_cons _ _)
            · exact List.suffix_cons _ _
        · exact List.suffix_refl _

theorem parseTranslations_suffix {s r : List Char} {v : NFoldSub × Option (List TranslationSymbol)}
    (h : parseTranslations s = some (v, r)) : r <:+ s := by
  unfold parseTranslations at h
  split at h
  · cases h
  · rename_i c cs
    split at h
    · simp only [] at h
      split at h <;> cases h <;> exact (List.dropWhile_suffix _).trans (List.suffix_cons _ _)
    · split at h
      · cases h; exact List.dropWhile_suffix _
      · cases h

/-- A matrix symbol is read exactly when a fold is found; at least one character is consumed; the builder never fails. -/
theorem parseMatrixSymbol_cases (s : List Char) :
    (parseFold (space0 s) = none ∧ parseMatrixSymbol s = (none, space0 s)) ∨
    ∃ sg f r m r', parseFold (space0 s) = some ((sg, f), r) ∧ parseMatrixSymbol s = (some m, r') ∧ r' <:+ r ∧
      m.nfoldBody = f ∧ m.minusSign = sg := by
  unfold parseMatrixSymbol parseSignFold
  simp only []
  cases hf : parseFold (space0 s) with
  | none => left; exact ⟨rfl, rfl⟩
  | some v =>
    obtain ⟨⟨sg, f⟩, r⟩ := v
    right
    simp only []
    have ha := takeEscaped_suffix r
    unfold parseAxis
    cases he : takeEscaped r with
    | mk sl r1 =>
      rw [he] at ha
      simp only [] at ha ⊢
      refine ⟨sg, f, r, ?_⟩
      cases hb : sl.bind axisOfSlice with
      | none =>
        simp only []
        cases ht : parseTranslations r1 with
        | none => exact ⟨_, r1, trivial, rfl, ha, rfl, rfl⟩
        | some v2 =>
          obtain ⟨⟨sub, trs⟩, r2⟩ := v2
          exact ⟨_, r2, trivial, rfl, (parseTranslations_suffix ht).trans ha, rfl, rfl⟩
      | some ax =>
        obtain ⟨a, d⟩ := ax
        simp only []
        cases ht : parseTranslations r1 with
        | none => exact ⟨_, r1, trivial, rfl, ha, rfl, rfl⟩
        | some v2 =>
          obtain ⟨⟨sub, trs⟩, r2⟩ := v2
          exact ⟨_, r2, trivial, rfl, (parseTranslations_suffix ht).trans ha, rfl, rfl⟩

theorem parseMatrixSymbol_consumes {s r : List Char} {m : MatrixSymbol} (h : parseMatrixSymbol s = (some m, r)) :
    r <:+ s ∧ r.length < s.length := by
  rcases parseMatrixSymbol_cases s with ⟨_, h'⟩ | ⟨sg, f, r1, m', r', hf, h', hs, _⟩
  · rw [h'] at h; cases h
  · rw [h'] at h
    cases h
    obtain ⟨h1, h2, _⟩ := parseFold_consumes hf
    have h3 := (space0_suffix s)
    exact ⟨(hs.trans h1).trans h3, lt_of_le_of_lt hs.length_le (lt_of_lt_of_le h2 h3.length_le)⟩

theorem parseMatrixSymbol_fail {s r : List Char} (h : parseMatrixSymbol s = (none, r)) :
    r = space0 s ∧ parseFold (space0 s) = none := by
  rcases parseMatrixSymbol_cases s with ⟨h1, h'⟩ | ⟨sg, f, r1, m', r', hf, h', hs, _⟩
  · rw [h'] at h; cases h; exact ⟨rfl, h1⟩
  · rw [h'] at h; cases h

theorem parseSymbols_reads {fuel : Nat} {s : List Char} (h : s.length < fuel) :
    ∃ ms r, parseSymbols fuel s = some (ms, r) ∧ ReadsSymbols s ms r := by
  induction fuel generalizing s with
  | zero => omega
  | succ fuel ih =>
    rw [parseSymbols]
    cases hp : parseMatrixSymbol s with
    | mk o r =>
      cases o with
      | none => exact ⟨[], r, rfl, .stop hp⟩
      | some m =>
        obtain ⟨_, hlt⟩ := parseMatrixSymbol_consumes hp
        obtain ⟨ms, r', h1, h2⟩ := ih (s := r) (by omega)
        simp only [h1]
        exact ⟨m :: ms, r', rfl, .next hp h2⟩

theorem ReadsSymbols.unique {s r r' : List Char} {ms ms' : List MatrixSymbol} (h : ReadsSymbols s ms r)
    (h' : ReadsSymbols s ms' r') : ms = ms' ∧ r = r' := by
  induction h generalizing ms' r' with
  | stop hp =>
    cases h' with
    | stop hp' => rw [hp] at hp'; cases hp'; exact ⟨rfl, rfl⟩
    | next hp' _ => rw [hp] at hp'; cases hp'
  | next hp _ ih =>
    cases h' with
    | stop hp' => rw [hp] at hp'; cases hp'
    | next hp' h2 =>
      rw [hp] at hp'
      cases hp'
      obtain ⟨rfl, rfl⟩ := ih h2
      exact ⟨rfl, rfl⟩

theorem parseSymbols_of_reads {fuel : Nat} {s r : List Char} {ms : List MatrixSymbol} (hf : s.length < fuel)
    (h : ReadsSymbols s ms r) : parseSymbols fuel s = some (ms, r) := by
  obtain ⟨ms', r', h1, h2⟩ := parseSymbols_reads hf
  obtain ⟨rfl, rfl⟩ := h.unique h2
  exact h1

/-- Reading the text of written symbols. -/
theorem reads_text {ws : List (List Char × Written)} (h : ProperlySpaced ws) {tail : List Char} (ht : Stops tail)
    (hn : parseFold (space0 tail) = none) :
    ReadsSymbols (symbolsText ws ++ tail) (ws.map fun bw => bw.2.raw) (space0 tail) := by
  have hstop : ReadsSymbols tail [] (space0 tail) := by
    rcases parseMatrixSymbol_cases tail with ⟨_, h'⟩ | ⟨_, _, _, _, _, hf, _⟩
    · exact .stop h'
    · rw [hn] at hf; cases hf
  have key : ∀ ws : List (List Char × Written), (∀ bw ∈ ws, (∀ c ∈ bw.1, Blank c) ∧ bw.1 ≠ [] ∧ bw.2.Valid) →
      Stops (symbolsText ws ++ tail) ∧
      ReadsSymbols (symbolsText ws ++ tail) (ws.map fun bw => bw.2.raw) (space0 tail) := by
    intro ws hws
    induction ws with
    | nil => exact ⟨ht, hstop⟩
    | cons bw ws ih =>
      obtain ⟨hs, hr⟩ := ih fun x hx => hws x (List.mem_cons_of_mem _ hx)
      obtain ⟨hb, hne, hv⟩ := hws bw (List.mem_cons_self ..)
      constructor
      · obtain ⟨b, w⟩ := bw
        cases b with
        | nil => exact absurd rfl hne
        | cons c b => exact stops_blank (hb c (List.mem_cons_self ..)) _
      · have := parseMatrixSymbol_text hv hb hs
        refine .next (r := symbolsText ws ++ tail) ?_ hr
        rw [← this]
        simp [symbolsText]
  cases ws with
  | nil => exact hstop
  | cons bw ws =>
    obtain ⟨b, w⟩ := bw
    obtain ⟨hb, hv, hrest⟩ := h
    obtain ⟨hs, hr⟩ := key ws hrest
    have := parseMatrixSymbol_text hv hb hs
    refine .next (r := symbolsText ws ++ tail) ?_ hr
    rw [← this]
    simp [symbolsText]

/-! ## Integers -/

theorem isDigit_iff (c : Char) : isDigit c = true ↔ DecimalDigit c := by
  constructor
  · intro h
    simp only [isDigit, Bool.and_eq_true, decide_eq_true_eq] at h
    obtain ⟨h1, h2⟩ := h
    have e1 : 48 ≤ c.toNat := h1
    have e2 : c.toNat ≤ 57 := h2
    have : c = Char.ofNat c.toNat := (Char.ofNat_toNat c).symm
    rw [this]
    unfold DecimalDigit
    interval_cases c.toNat <;> decide
  · intro h
    unfold DecimalDigit at h
    revert h
    simp only [List.mem_cons, List.not_mem_nil, or_false]
    rintro (rfl | rfl | rfl | rfl | rfl | rfl | rfl | rfl | rfl | rfl) <;> decide

theorem isNonZeroDigit_iff (c : Char) : isNonZeroDigit c = true ↔ DecimalDigit c ∧ c ≠ '0' := by
  rw [← isDigit_iff]
  constructor
  · intro h
    simp only [isNonZeroDigit, isDigit, Bool.and_eq_true, decide_eq_true_eq] at h ⊢
    refine ⟨⟨?_, h.2⟩, ?_⟩
    · have e1 : 49 ≤ c.toNat := h.1
      exact (show 48 ≤ c.toNat by omega)
    rintro rfl
    exact absurd h.1 (by decide)
  · rintro ⟨h, hne⟩
    rw [isDigit_iff] at h
    unfold DecimalDigit at h
    revert h hne
    simp only [List.mem_cons, List.not_mem_nil, or_false]
    rintro (rfl | rfl | rfl | rfl | rfl | rfl | rfl | rfl | rfl | rfl) hne <;> first | decide | exact absurd rfl hne

theorem digitsVal_eq (ds : List Char) : digitsVal ds = decimalValue ds := by
  unfold digitsVal decimalValue
  congr 1
  funext acc c
  rw [Nat.mul_comm]
  rfl

theorem inI32_iff (v : Int) : inI32 v = true ↔ FitsI32 v := by simp [inI32, FitsI32]

theorem parsePosDigits_sound {s r : List Char} {n : Nat} (h : parsePosDigits s = some (n, r)) :
    ∃ d ds, s = d :: ds ++ r ∧ DecimalDigit d ∧ d ≠ '0' ∧ (∀ c ∈ ds, DecimalDigit c) ∧ n = decimalValue (d :: ds) := by
  unfold parsePosDigits at h
  split at h
  · rename_i c cs
    split at h
    · rename_i hc
      cases h
      obtain ⟨h1, h2⟩ := (isNonZeroDigit_iff c).1 hc
      refine ⟨c, cs.takeWhile isDigit, ?_, h1, h2, ?_, digitsVal_eq _⟩
      · simp [List.takeWhile_append_dropWhile]
      · intro x hx
        exact (isDigit_iff x).1 (List.mem_takeWhile_imp hx)
    · cases h
  · cases h

theorem parsePosDigits_complete {d : Char} {ds r : List Char} (hd : DecimalDigit d) (h0 : d ≠ '0')
    (hds : ∀ c ∈ ds, DecimalDigit c) (hr : ∀ c, r.head? = some c → ¬ DecimalDigit c) :
    parsePosDigits (d :: ds ++ r) = some (decimalValue (d :: ds), r) := by
  obtain ⟨h1, h2⟩ := takeWhile_stop (p := isDigit) (l := ds) (rest := r) (fun c hc => (isDigit_iff c).2 (hds c hc))
    (fun c hc => by
      cases hcd : isDigit c with
      | false => rfl
      | true => exact absurd ((isDigit_iff c).1 hcd) (hr c hc))
  rw [List.cons_append, parsePosDigits, if_pos ((isNonZeroDigit_iff d).2 ⟨hd, h0⟩), h1, h2, digitsVal_eq]

theorem decInt_sound {s r : List Char} {v : Int} (h : decInt s = some (v, r)) :
    ∃ t, s = t ++ r ∧ IntText t v ∧ FitsI32 v := by
  unfold decInt at h
  simp only [] at h
  split at h
  · rename_i v' r' heq
    split at h
    · rename_i hi
      cases h
      split at heq
      · rename_i cs
        obtain ⟨⟨n, r''⟩, hp, he⟩ := Option.map_eq_some_iff.1 heq
        cases he
        obtain ⟨d, ds, e, a, b, c, rfl⟩ := parsePosDigits_sound hp
        exact ⟨'+' :: d :: ds, by rw [e]; rfl, .plus a b c, (inI32_iff _).1 hi⟩
      · rename_i cs
        obtain ⟨⟨n, r''⟩, hp, he⟩ := Option.map_eq_some_iff.1 heq
        cases he
        obtain ⟨d, ds, e, a, b, c, rfl⟩ := parsePosDigits_sound hp
        exact ⟨'-' :: d :: ds, by rw [e]; rfl, .minus a b c, (inI32_iff _).1 hi⟩
      · obtain ⟨⟨n, r''⟩, hp, he⟩ := Option.map_eq_some_iff.1 heq
        cases he
        obtain ⟨d, ds, e, a, b, c, rfl⟩ := parsePosDigits_sound hp
        exact ⟨d :: ds, e, .plain a b c, (inI32_iff _).1 hi⟩
    · cases h
  · split at h
    · cases h
      exact ⟨['0'], rfl, .zero, by unfold FitsI32; omega⟩
    · cases h

theorem decInt_complete {t r : List Char} {v : Int} (ht : IntText t v) (hv : FitsI32 v)
    (hr : ∀ c, r.head? = some c → ¬ DecimalDigit c) : decInt (t ++ r) = some (v, r) := by
  have hi := (inI32_iff v).2 hv
  cases ht with
  | zero => rfl
  | plain a b c =>
    rename_i d ds
    have hp := parsePosDigits_complete a b c hr
    have h1 : d ≠ '+' := by rintro rfl; exact absurd a (by unfold DecimalDigit; decide)
    have h2 : d ≠ '-' := by rintro rfl; exact absurd a (by unfold DecimalDigit; decide)
    unfold decInt
    simp only [List.cons_append] at hp ⊢
    split
    · rename_i v' r' heq
      split at heq
      · rename_i heq'; cases heq'; exact absurd rfl h1
      · rename_i heq'; cases heq'; exact absurd rfl h2
      · rw [hp] at heq
        cases heq
        rw [if_pos hi]
    · rename_i heq
      split at heq
      · rename_i heq'; cases heq'; exact absurd rfl h1
      · rename_i heq'; cases heq'; exact absurd rfl h2
      · rw [hp] at heq; cases heq
  | plus a b c =>
    rename_i d ds
    have hp := parsePosDigits_complete a b c hr
    simp only [List.cons_append] at hp ⊢
    unfold decInt
    simp only [hp, Option.map_some, hi, if_true]
  | minus a b c =>
    rename_i d ds
    have hp := parsePosDigits_complete a b c hr
    simp only [List.cons_append] at hp ⊢
    unfold decInt
    simp only [hp, Option.map_some, hi, if_true]

theorem intText_head {t : List Char} {v : Int} (h : IntText t v) : ∃ c cs, t = c :: cs ∧ isBlank c = false := by
  cases h with
  | zero => exact ⟨_, _, rfl, rfl⟩
  | plus => exact ⟨_, _, rfl, rfl⟩
  | minus => exact ⟨_, _, rfl, rfl⟩
  | plain a b c =>
    rename_i d ds
    refine ⟨_, _, rfl, ?_⟩
    unfold DecimalDigit at a
    revert a
    simp only [List.mem_cons, List.not_mem_nil, or_false]
    rintro (rfl | rfl | rfl | rfl | rfl | rfl | rfl | rfl | rfl | rfl) <;> decide

theorem sepInt_sound {s r : List Char} {v : Int} (h : sepInt s = some (v, r)) :
    ∃ b t, s = b ++ t ++ r ∧ b ≠ [] ∧ (∀ c ∈ b, Blank c) ∧ IntText t v ∧ FitsI32 v := by
  unfold sepInt at h
  split at h
  · rename_i c cs
    split at h
    · rename_i hc
      obtain ⟨t, e, ht, hv⟩ := decInt_sound h
      refine ⟨(c :: cs).takeWhile isBlank, t, ?_, ?_, ?_, ht, hv⟩
      · rw [List.append_assoc, ← e]
        exact (List.takeWhile_append_dropWhile (p := isBlank)).symm
      · simp [hc]
      · intro x hx
        exact (isBlank_iff x).1 (List.mem_takeWhile_imp hx)
    · cases h
  · cases h

theorem sepInt_complete {b t r : List Char} {v : Int} (hne : b ≠ []) (hb : ∀ c ∈ b, Blank c) (ht : IntText t v)
    (hv : FitsI32 v) (hr : ∀ c, r.head? = some c → ¬ DecimalDigit c) : sepInt (b ++ t ++ r) = some (v, r) := by
  obtain ⟨c, cs, rfl, hc⟩ := intText_head ht
  cases b with
  | nil => exact absurd rfl hne
  | cons x b =>
    have hx := (isBlank_iff x).2 (hb x (List.mem_cons_self ..))
    rw [List.append_assoc, List.cons_append, sepInt, if_pos hx, ← List.cons_append, space0_append hb, List.cons_append,
      space0_nonblank hc, ← List.cons_append]
    exact decInt_complete ht hv hr

theorem notDigit_blank {b r : List Char} (hne : b ≠ []) (hb : ∀ c ∈ b, Blank c) :
    ∀ c, (b ++ r).head? = some c → ¬ DecimalDigit c := by
  intro c hc
  cases b with
  | nil => exact absurd rfl hne
  | cons x b =>
    cases hc
    rcases hb _ (List.mem_cons_self ..) with rfl | rfl <;> unfold DecimalDigit <;> decide

theorem notDigit_paren (r : List Char) : ∀ c, (')' :: r).head? = some c → ¬ DecimalDigit c := by
  intro c hc
  cases hc
  unfold DecimalDigit
  decide

theorem sepInt_paren (r : List Char) : sepInt (')' :: r) = none := rfl

/-- Reading a list of one, two or three integers up to the closing parenthesis. -/
theorem parseInts_iff (s : List Char) (vs : List Int) (r : List Char) :
    parseInts s = some (vs, ')' :: r) ↔ vs.length ≤ 3 ∧ ∃ t, IntsText t vs ∧ s = t ++ ')' :: r := by
  constructor
  · intro h
    unfold parseInts at h
    split at h
    · cases h
    · rename_i a r1 h1
      obtain ⟨t1, e1, i1, f1⟩ := decInt_sound h1
      split at h
      · cases h
        exact ⟨by simp, t1, .one i1 f1, e1⟩
      · rename_i b r2 h2
        obtain ⟨b2, t2, e2, n2, k2, i2, f2⟩ := sepInt_sound h2
        split at h
        · cases h
          refine ⟨by simp, t1 ++ b2 ++ t2, .more i1 f1 n2 k2 (.one i2 f2), ?_⟩
          rw [e1, e2]; simp
        · rename_i c r3 h3
          cases h
          obtain ⟨b3, t3, e3, n3, k3, i3, f3⟩ := sepInt_sound h3
          refine ⟨by simp, t1 ++ b2 ++ (t2 ++ b3 ++ t3), .more i1 f1 n2 k2 (.more i2 f2 n3 k3 (.one i3 f3)), ?_⟩
          rw [e1, e2, e3]; simp
  · rintro ⟨hlen, t, ht, rfl⟩
    unfold parseInts
    cases ht with
    | one i1 f1 =>
      rw [decInt_complete i1 f1 (notDigit_paren r)]
      simp only [sepInt_paren]
    | more i1 f1 n2 k2 ht2 =>
      rename_i t1 b2 t2 v1 vs
      rw [List.append_assoc, List.append_assoc, decInt_complete i1 f1 (notDigit_blank n2 k2), ← List.append_assoc]
      simp only []
      cases ht2 with
      | one i2 f2 =>
        rw [sepInt_complete n2 k2 i2 f2 (notDigit_paren r)]
        simp only [sepInt_paren]
      | more i2 f2 n3 k3 ht3 =>
        rename_i t2 b3 t3 v2 vs
        have e : b2 ++ (t2 ++ b3 ++ t3) ++ ')' :: r = b2 ++ t2 ++ (b3 ++ (t3 ++ ')' :: r)) := by simp
        rw [e, sepInt_complete n2 k2 i2 f2 (notDigit_blank n3 k3), ← List.append_assoc]
        simp only []
        cases ht3 with
        | one i3 f3 => rw [sepInt_complete n3 k3 i3 f3 (notDigit_paren r)]
        | more i3 f3 n4 k4 ht4 =>
          exfalso
          cases ht4 <;> simp at hlen

theorem parseShiftList_iff (s : List Char) (vs : List Int) (r : List Char) :
    parseShiftList s = some (vs, r) ↔ vs.length ≤ 3 ∧ ShiftText s vs r := by
  constructor
  · intro h
    unfold parseShiftList at h
    split at h
    · rename_i r0 h0
      split at h
      · rename_i l r' hp
        cases h
        obtain ⟨hl, t, ht, e⟩ := (parseInts_iff _ _ _).1 hp
        refine ⟨hl, s.takeWhile isBlank, t, ?_, ht, ?_⟩
        · intro x hx
          exact (isBlank_iff x).1 (List.mem_takeWhile_imp hx)
        · have := (List.takeWhile_append_dropWhile (p := isBlank) (l := s)).symm
          rw [show s.dropWhile isBlank = space0 s from rfl, h0, e] at this
          simpa using this
      · cases h
    · cases h
  · rintro ⟨hl, b, t, hb, ht, rfl⟩
    unfold parseShiftList
    rw [List.append_assoc, space0_append hb, List.cons_append, space0_nonblank (by decide)]
    simp only []
    rw [(parseInts_iff _ vs r).2 ⟨hl, t, ht, rfl⟩]
    rfl

theorem parseOriginShift_none (s : List Char) :
    parseOriginShift s = none ↔ ∃ vs r, ShiftText s vs r ∧ (vs.length = 1 ∨ vs.length = 2) := by
  unfold parseOriginShift
  constructor
  · intro h
    split at h
    · cases h
    · rename_i vs r hne heq
      obtain ⟨hl, ht⟩ := (parseShiftList_iff _ _ _).1 heq
      refine ⟨vs, r, ht, ?_⟩
      match vs, hl, hne, ht with
      | [], _, _, ⟨_, _, _, ht, _⟩ => cases ht
      | [_], _, _, _ => exact Or.inl rfl
      | [_, _], _, _, _ => exact Or.inr rfl
      | [a, b, c], _, hne, _ => exact absurd rfl (hne a b c)
      | _ :: _ :: _ :: _ :: _, hl, _, _ => simp at hl
    · cases h
  · rintro ⟨vs, r, ht, hlen⟩
    rw [(parseShiftList_iff _ _ _).2 ⟨by omega, ht⟩]
    match vs, hlen with
    | [_], _ => rfl
    | [_, _], _ => rfl
    | [], h => simp at h
    | [_, _, _], h => simp at h
    | _ :: _ :: _ :: _ :: _, h => simp at h

theorem parseOriginShift_three {s r : List Char} {a b c : Int} (h : ShiftText s [a, b, c] r) :
    parseOriginShift s = some (OriginShift.new a b c, r) := by
  unfold parseOriginShift
  rw [(parseShiftList_iff _ _ _).2 ⟨by simp, h⟩]

end Verif
