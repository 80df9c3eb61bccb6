import Verif.Spec.HallGroup

/-! # A text is the written form of at most one symbol -/

namespace Verif

/-- Two ways of cutting a text after a maximal run of characters satisfying `P` coincide. -/
theorem cut_unique {P : Char → Prop} : ∀ {a a' r r' : List Char}, (∀ c ∈ a, P c) → (∀ c ∈ a', P c) →
    (∀ c, r.head? = some c → ¬ P c) → (∀ c, r'.head? = some c → ¬ P c) → a ++ r = a' ++ r' → a = a' ∧ r = r'
  | [], [], _, _, _, _, _, _, h => ⟨rfl, h⟩
  | [], c :: a', r, r', _, ha', hr, _, h => by
    simp only [List.nil_append] at h
    exact absurd (ha' c (List.mem_cons_self ..)) (hr c (by rw [h]; rfl))
  | c :: a, [], r, r', ha, _, _, hr', h => by
    simp only [List.nil_append] at h
    exact absurd (ha c (List.mem_cons_self ..)) (hr' c (by rw [← h]; rfl))
  | c :: a, d :: a', r, r', ha, ha', hr, hr', h => by
    simp only [List.cons_append, List.cons.injEq] at h
    obtain ⟨rfl, h⟩ := h
    obtain ⟨rfl, h2⟩ := cut_unique (fun c hc => ha c (List.mem_cons_of_mem _ hc)) (fun c hc => ha' c (List.mem_cons_of_mem _ hc))
      hr hr' h
    exact ⟨rfl, h2⟩

instance (c : Char) : Decidable (Blank c) := by unfold Blank; infer_instance

/-- A character of a symbol. -/
def InSymbol (c : Char) : Prop := ¬ Blank c ∧ c ≠ '('

instance (c : Char) : Decidable (InSymbol c) := by unfold InSymbol Blank; infer_instance

theorem letterChar_inSymbol (t : TranslationSymbol) : InSymbol (letterChar t) := by cases t <;> decide

theorem Written.text_inSymbol (w : Written) : ∀ c ∈ w.text, InSymbol c := by
  intro c hc
  simp only [Written.text, List.mem_append] at hc
  rcases hc with (((hc | hc) | hc) | hc) | hc
  · split at hc
    · obtain rfl := List.mem_singleton.1 hc; decide
    · cases hc
  · obtain rfl := List.mem_singleton.1 hc
    cases w.fold <;> decide
  · split at hc
    · rename_i a _
      obtain rfl := List.mem_singleton.1 hc
      cases a <;> decide
    · cases hc
  · revert hc
    cases w.sub <;> simp only [subText, List.not_mem_nil, List.mem_singleton, false_imp_iff] <;> rintro rfl <;> decide
  · obtain ⟨t, _, rfl⟩ := List.mem_map.1 hc
    exact letterChar_inSymbol t

theorem foldChar_inj {f g : NFold} (h : foldChar f = foldChar g) : f = g := by
  cases f <;> cases g <;> first | rfl | exact absurd h (by decide)

theorem letterChar_inj {f g : TranslationSymbol} (h : letterChar f = letterChar g) : f = g := by
  cases f <;> cases g <;> first | rfl | exact absurd h (by decide)

theorem letters_inj : ∀ {a b : List TranslationSymbol}, a.map letterChar = b.map letterChar → a = b
  | [], [], _ => rfl
  | _ :: _, [], h => by cases h
  | [], _ :: _, h => by cases h
  | _ :: _, _ :: _, h => by
    simp only [List.map_cons, List.cons.injEq] at h
    rw [letterChar_inj h.1, letters_inj h.2]

/-- A letter is neither a subscript nor an axis mark. -/
theorem letterChar_other (t : TranslationSymbol) : letterChar t ∉ ['1', '2', '3', '4', '5', 'x', 'y', 'z', '\'', '"', '*'] := by
  cases t <;> decide

theorem sub_letters_inj {s s' : NFoldSub} {a b : List TranslationSymbol}
    (h : subText s ++ a.map letterChar = subText s' ++ b.map letterChar) : s = s' ∧ a = b := by
  have hd : ∀ (c : Char) (d : List TranslationSymbol) (e : List Char), c ∈ ['1', '2', '3', '4', '5'] → d.map letterChar ≠ c :: e := by
    intro c d e hc hd
    cases d with
    | nil => cases hd
    | cons t d =>
      simp only [List.map_cons, List.cons.injEq] at hd
      refine letterChar_other t ?_
      rw [hd.1]
      revert hc
      simp only [List.mem_cons, List.not_mem_nil, or_false]
      tauto
  cases s <;> cases s' <;> simp only [subText, List.nil_append, List.cons_append, List.cons.injEq] at h
  all_goals first
    | exact ⟨rfl, letters_inj h⟩
    | exact ⟨rfl, letters_inj h.2⟩
    | exact absurd h.1 (by decide)
    | exact absurd h (hd _ _ _ (by decide))
    | exact absurd h.symm (hd _ _ _ (by decide))

/-- The part of a symbol behind its order. -/
theorem rest_inj {x y : Option AxisMark} {s s' : NFoldSub} {a b : List TranslationSymbol}
    (h : (match x with | some a => [a.char] | none => []) ++ (subText s ++ a.map letterChar) =
      (match y with | some a => [a.char] | none => []) ++ (subText s' ++ b.map letterChar)) : x = y ∧ s = s' ∧ a = b := by
  have hd : ∀ (m : AxisMark) (s : NFoldSub) (d : List TranslationSymbol) (e : List Char),
      subText s ++ d.map letterChar ≠ m.char :: e := by
    intro m s d e hd
    cases s with
    | None =>
      cases d with
      | nil => cases hd
      | cons t d =>
        simp only [subText, List.nil_append, List.map_cons, List.cons.injEq] at hd
        refine letterChar_other t ?_
        rw [hd.1]
        cases m <;> decide
    | _ => 
      simp only [subText, List.cons_append, List.cons.injEq] at hd
      exact absurd hd.1 (by cases m <;> decide)
  cases x with
  | none =>
    cases y with
    | none => exact ⟨rfl, sub_letters_inj h⟩
    | some y => exact absurd h (hd _ _ _ _)
  | some x =>
    cases y with
    | none => exact absurd h.symm (hd _ _ _ _)
    | some y =>
      simp only [List.cons_append, List.nil_append, List.cons.injEq] at h
      have : x = y := by
        cases x <;> cases y <;> first | rfl | exact absurd h.1 (by decide)
      exact ⟨by rw [this], sub_letters_inj h.2⟩

theorem Written.text_inj {w w' : Written} (h : w.text = w'.text) : w = w' := by
  obtain ⟨m, f, x, s, l⟩ := w
  obtain ⟨m', f', x', s', l'⟩ := w'
  have hm : ∀ f : NFold, foldChar f ≠ '-' := by intro f; cases f <;> decide
  simp only [Written.text, List.append_assoc] at h
  have key : m = m' ∧ foldChar f = foldChar f' ∧
      x = x' ∧ s = s' ∧ l = l' := by
    cases m <;> cases m' <;>
      simp only [Bool.false_eq_true, ↓reduceIte, List.nil_append, List.cons_append, List.cons.injEq] at h
    · exact ⟨rfl, h.1, rest_inj h.2⟩
    · exact absurd h.1 (hm _)
    · exact absurd h.1.symm (hm _)
    · exact ⟨rfl, h.2.1, rest_inj h.2.2⟩
  obtain ⟨rfl, h1, rfl, rfl, rfl⟩ := key
  obtain rfl := foldChar_inj h1
  rfl

/-- The first character of a symbol: a minus sign or a digit. -/
theorem Written.text_head (w : Written) : ∃ c r, w.text = c :: r ∧ InSymbol c := by
  have := w.text_inSymbol
  obtain ⟨m, f, x, s, l⟩ := w
  cases m
  · exact ⟨foldChar f, _, by simp [Written.text]; rfl, by cases f <;> decide⟩
  · exact ⟨'-', _, by simp [Written.text]; rfl, by decide⟩

/-- What follows the symbols: nothing, blanks, or blanks and a parenthesis. -/
def EndText (t : List Char) : Prop := ∃ b r, (∀ c ∈ b, Blank c) ∧ t = b ++ r ∧ (r = [] ∨ r.head? = some '(')

theorem ShiftWritten.endText {t : List Char} {v : V3} (h : ShiftWritten t v) : EndText t := by
  cases h with
  | none hb => exact ⟨t, [], hb, by simp, Or.inl rfl⟩
  | shift hs =>
    obtain ⟨b, u, hb, _, rfl⟩ := hs
    exact ⟨b, '(' :: u ++ [')'], hb, by simp, Or.inr rfl⟩

theorem EndText.head {t : List Char} (h : EndText t) : ∀ c, t.head? = some c → ¬ InSymbol c := by
  obtain ⟨b, r, hb, rfl, hr⟩ := h
  intro c hc hi
  cases b with
  | nil =>
    rcases hr with rfl | hr
    · cases hc
    · rw [List.nil_append, hr] at hc
      cases hc
      exact hi.2 rfl
  | cons d b =>
    cases hc
    exact hi.1 (hb _ (List.mem_cons_self ..))

/-- The separators are blanks and nonempty. -/
def Spaced (ws : List (List Char × Written)) : Prop := ∀ bw ∈ ws, (∀ c ∈ bw.1, Blank c) ∧ bw.1 ≠ []

theorem symbols_head {ws : List (List Char × Written)} {t : List Char} (hw : Spaced ws) (ht : EndText t) :
    ∀ c, (symbolsText ws ++ t).head? = some c → ¬ InSymbol c := by
  cases ws with
  | nil => exact ht.head
  | cons a rest =>
    obtain ⟨b, w⟩ := a
    obtain ⟨h1, h2⟩ := hw _ (List.mem_cons_self ..)
    intro c hc hi
    cases b with
    | nil => exact h2 rfl
    | cons d b =>
      simp only [symbolsText, List.flatMap_cons, List.cons_append, List.head?_cons, Option.some.injEq] at hc
      subst hc
      exact hi.1 (h1 _ (List.mem_cons_self ..))

theorem not_symbol_end {b r t : List Char} {c : Char} (hb : ∀ c ∈ b, Blank c) (hc : InSymbol c) (ht : EndText t)
    (h : b ++ c :: r = t) : False := by
  obtain ⟨b', r', hb', rfl, hr⟩ := ht
  have := cut_unique (P := Blank) hb hb' (by intro d hd; cases hd; exact hc.1)
    (by
      intro d hd
      rcases hr with rfl | hr
      · cases hd
      · rw [hr] at hd; cases hd; decide) h
  rcases hr with rfl | hr
  · cases this.2
  · rw [← this.2] at hr
    cases hr
    exact hc.2 rfl

/-- One symbol with its blanks in front. -/
theorem one_unique {b b' r r' : List Char} {w w' : Written} (hb : ∀ c ∈ b, Blank c) (hb' : ∀ c ∈ b', Blank c)
    (hr : ∀ c, r.head? = some c → ¬ InSymbol c) (hr' : ∀ c, r'.head? = some c → ¬ InSymbol c)
    (h : b ++ (w.text ++ r) = b' ++ (w'.text ++ r')) : b = b' ∧ w = w' ∧ r = r' := by
  obtain ⟨c, u, hu, hc⟩ := w.text_head
  obtain ⟨c', u', hu', hc'⟩ := w'.text_head
  have := cut_unique (P := Blank) hb hb' (by intro d hd; rw [hu] at hd; cases hd; exact hc.1)
    (by intro d hd; rw [hu'] at hd; cases hd; exact hc'.1) h
  obtain ⟨rfl, hrest⟩ := this
  obtain ⟨h1, h2⟩ := cut_unique w.text_inSymbol w'.text_inSymbol hr hr' hrest
  exact ⟨rfl, Written.text_inj h1, h2⟩

theorem spaced_unique : ∀ {ws ws' : List (List Char × Written)} {t t' : List Char}, Spaced ws → Spaced ws' → EndText t →
    EndText t' → symbolsText ws ++ t = symbolsText ws' ++ t' → ws = ws' ∧ t = t'
  | [], [], _, _, _, _, _, _, h => ⟨rfl, h⟩
  | (b, w) :: rest, [], t, t', hw, _, _, ht', h => by
    obtain ⟨c, u, hu, hc⟩ := w.text_head
    simp only [symbolsText, List.flatMap_cons, List.flatMap_nil, List.nil_append, List.append_assoc, hu, List.cons_append] at h
    exact (not_symbol_end (hw _ (List.mem_cons_self ..)).1 hc ht' h).elim
  | [], (b, w) :: rest, t, t', _, hw, ht, _, h => by
    obtain ⟨c, u, hu, hc⟩ := w.text_head
    simp only [symbolsText, List.flatMap_cons, List.flatMap_nil, List.nil_append, List.append_assoc, hu, List.cons_append] at h
    exact (not_symbol_end (hw _ (List.mem_cons_self ..)).1 hc ht h.symm).elim
  | (b, w) :: rest, (b', w') :: rest', t, t', hw, hw', ht, ht', h => by
    have hs : Spaced rest := fun x hx => hw x (List.mem_cons_of_mem _ hx)
    have hs' : Spaced rest' := fun x hx => hw' x (List.mem_cons_of_mem _ hx)
    have e : ∀ (b : List Char) (w : Written) rest t, symbolsText ((b, w) :: rest) ++ t = b ++ (w.text ++ (symbolsText rest ++ t)) := by
      intro b w rest t
      simp [symbolsText]
    rw [e, e] at h
    obtain ⟨rfl, rfl, hn⟩ := one_unique (hw _ (List.mem_cons_self ..)).1 (hw' _ (List.mem_cons_self ..)).1
      (symbols_head hs ht) (symbols_head hs' ht') h
    obtain ⟨rfl, rfl⟩ := spaced_unique hs hs' ht ht' hn
    exact ⟨rfl, rfl⟩

theorem symbols_unique {ws ws' : List (List Char × Written)} {t t' : List Char} (hw : ProperlySpaced ws)
    (hw' : ProperlySpaced ws') (ht : EndText t) (ht' : EndText t') (h : symbolsText ws ++ t = symbolsText ws' ++ t') :
    ws = ws' ∧ t = t' := by
  have e : ∀ (b : List Char) (w : Written) rest t, symbolsText ((b, w) :: rest) ++ t = b ++ (w.text ++ (symbolsText rest ++ t)) := by
    intro b w rest t
    simp [symbolsText]
  match ws, ws', hw, hw', h with
  | [], [], _, _, h => exact ⟨rfl, h⟩
  | (b, w) :: rest, [], hw, _, h =>
    obtain ⟨c, u, hu, hc⟩ := w.text_head
    rw [e, hu] at h
    exact (not_symbol_end hw.1 hc ht' h).elim
  | [], (b, w) :: rest, _, hw, h =>
    obtain ⟨c, u, hu, hc⟩ := w.text_head
    rw [e, hu] at h
    exact (not_symbol_end hw.1 hc ht h.symm).elim
  | (b, w) :: rest, (b', w') :: rest', hw, hw', h =>
    have hs : Spaced rest := fun x hx => ⟨(hw.2.2 x hx).1, (hw.2.2 x hx).2.1⟩
    have hs' : Spaced rest' := fun x hx => ⟨(hw'.2.2 x hx).1, (hw'.2.2 x hx).2.1⟩
    rw [e, e] at h
    obtain ⟨rfl, rfl, hn⟩ := one_unique hw.1 hw'.1 (symbols_head hs ht) (symbols_head hs' ht') h
    obtain ⟨rfl, rfl⟩ := spaced_unique hs hs' ht ht' hn
    exact ⟨rfl, rfl⟩

theorem lattice_unique {m m' : Bool} {l l' : Lattices} {r r' : List Char} (h : latticeText m l ++ r = latticeText m' l' ++ r') :
    m = m' ∧ l = l' ∧ r = r' := by
  have hm : ∀ l : Lattices, latticeChar l ≠ '-' := by intro l; cases l <;> decide
  have hl : latticeChar l = latticeChar l' → l = l' := by
    intro h
    cases l <;> cases l' <;> first | rfl | exact absurd h (by decide)
  unfold latticeText at h
  cases m <;> cases m' <;> simp only [Bool.false_eq_true, ↓reduceIte, List.nil_append, List.cons_append, List.cons.injEq] at h
  · exact ⟨rfl, hl h.1, h.2⟩
  · exact absurd h.1 (hm _)
  · exact absurd h.1.symm (hm _)
  · exact ⟨rfl, hl h.2.1, h.2.2⟩

/-! ## The shift -/

theorem IntText.chars {t : List Char} {v : Int} (h : IntText t v) : ∀ c ∈ t, ¬ Blank c ∧ c ≠ ')' ∧ c ≠ '(' := by
  have hd : ∀ c, DecimalDigit c → ¬ Blank c ∧ c ≠ ')' ∧ c ≠ '(' := by
    intro c hc
    simp only [DecimalDigit, List.mem_cons, List.not_mem_nil, or_false] at hc
    rcases hc with rfl | rfl | rfl | rfl | rfl | rfl | rfl | rfl | rfl | rfl <;> decide
  intro c hc
  cases h with
  | zero => obtain rfl := List.mem_singleton.1 hc; decide
  | plain h1 _ h3 =>
    rcases List.mem_cons.1 hc with rfl | hc
    · exact hd _ h1
    · exact hd _ (h3 _ hc)
  | plus h1 _ h3 =>
    rcases List.mem_cons.1 hc with rfl | hc
    · decide
    · rcases List.mem_cons.1 hc with rfl | hc
      · exact hd _ h1
      · exact hd _ (h3 _ hc)
  | minus h1 _ h3 =>
    rcases List.mem_cons.1 hc with rfl | hc
    · decide
    · rcases List.mem_cons.1 hc with rfl | hc
      · exact hd _ h1
      · exact hd _ (h3 _ hc)

theorem IntText.unique {t : List Char} {v v' : Int} (h : IntText t v) (h' : IntText t v') : v = v' := by
  have hp : ¬ DecimalDigit '+' := by unfold DecimalDigit; decide
  have hm : ¬ DecimalDigit '-' := by unfold DecimalDigit; decide
  cases h with
  | zero =>
    cases h' with
    | zero => rfl
    | plain _ h2 _ => exact absurd rfl h2
  | plain h1 h2 h3 =>
    cases h' with
    | zero => exact absurd rfl h2
    | plain => rfl
    | plus => exact absurd h1 hp
    | minus => exact absurd h1 hm
  | plus h1 h2 h3 =>
    cases h' with
    | plain h1' => exact absurd h1' hp
    | plus => rfl
  | minus h1 h2 h3 =>
    cases h' with
    | plain h1' => exact absurd h1' hm
    | minus => rfl

theorem IntText.ne_nil {t : List Char} {v : Int} (h : IntText t v) : t ≠ [] := by cases h <;> exact List.cons_ne_nil _ _

theorem IntsText.head {t : List Char} {vs : List Int} (h : IntsText t vs) : ∀ c, t.head? = some c → ¬ Blank c := by
  have hi : ∀ {t r : List Char} {v : Int}, IntText t v → ∀ c, (t ++ r).head? = some c → ¬ Blank c := by
    intro t r v h c hc
    cases t with
    | nil => exact absurd rfl h.ne_nil
    | cons d t => cases hc; exact (h.chars _ (List.mem_cons_self ..)).1
  cases h with
  | one h _ => intro c hc; exact hi (r := []) h c (by rwa [List.append_nil])
  | more h _ _ _ _ => intro c hc; rw [List.append_assoc] at hc; exact hi h c hc

theorem IntsText.unique {t : List Char} {vs : List Int} (h : IntsText t vs) : ∀ {vs' : List Int}, IntsText t vs' → vs = vs' := by
  have hne : ∀ {t b t' : List Char} {u : List Char}, b ≠ [] → (∀ c ∈ b, Blank c) → (∀ c ∈ u, ¬ Blank c) → t ++ b ++ t' ≠ u := by
    rintro t b t' u hb hb' hu rfl
    cases b with
    | nil => exact hb rfl
    | cons c b => exact hu c (by simp) (hb' c (List.mem_cons_self ..))
  induction h with
  | @one t v h hf =>
    intro vs' h'
    generalize ht : t = u at h'
    cases h' with
    | one h' _ => subst ht; rw [h.unique h']
    | more h' _ hb hb' _ => exact absurd ht.symm (hne hb hb' fun c hc => (h.chars c hc).1)
  | @more t b t' v vs h hf hb hb' ht ih =>
    intro vs' h'
    generalize hu : t ++ b ++ t' = u at h'
    cases h' with
    | one h' _ => exact absurd hu (hne hb hb' fun c hc => (h'.chars c hc).1)
    | @more t2 b2 t2' v2 vs2 h2 _ hb2 hb2' ht2 =>
      have hh : ∀ {b t' : List Char}, b ≠ [] → (∀ c ∈ b, Blank c) → ∀ c, (b ++ t').head? = some c → ¬¬ Blank c := by
        intro b t' hb hb' c hc
        cases b with
        | nil => exact absurd rfl hb
        | cons d b => cases hc; exact not_not.2 (hb' _ (List.mem_cons_self ..))
      rw [List.append_assoc, List.append_assoc] at hu
      obtain ⟨rfl, hn⟩ := cut_unique (P := fun c => ¬ Blank c) (fun c hc => (h.chars c hc).1) (fun c hc => (h2.chars c hc).1)
        (hh hb hb') (hh hb2 hb2') hu
      obtain ⟨_, rfl⟩ := cut_unique (P := Blank) hb' hb2' ht.head ht2.head hn
      rw [h.unique h2, ih ht2]

theorem ShiftWritten.unique {t : List Char} {v v' : V3} (h : ShiftWritten t v) (h' : ShiftWritten t v') : v = v' := by
  have hpar : ∀ {t : List Char} {vs : List Int}, ShiftText t vs [] → (∀ c ∈ t, Blank c) → False := by
    rintro t vs ⟨b, u, _, _, rfl⟩ h
    exact absurd (h '(' (by simp)) (by decide)
  cases h with
  | none hb =>
    cases h' with
    | none => rfl
    | shift hs => exact (hpar hs hb).elim
  | shift hs =>
    cases h' with
    | none hb => exact (hpar hs hb).elim
    | shift hs' =>
      obtain ⟨b, u, hb, hu, e⟩ := hs
      obtain ⟨b', u', hb', hu', e'⟩ := hs'
      rw [e] at e'
      simp only [List.append_assoc, List.cons_append] at e'
      obtain ⟨_, e'⟩ := cut_unique (P := Blank) hb hb' (by intro c hc; cases hc; decide) (by intro c hc; cases hc; decide) e'
      simp only [List.cons.injEq, true_and] at e'
      obtain rfl := List.append_cancel_right e'
      have := hu.unique hu'
      simp only [List.cons.injEq, and_true] at this
      obtain ⟨rfl, rfl, rfl⟩ := this
      rfl

end Verif
