import Verif.Props.Orbits
import Verif.Props.Canonical
import Verif.Props.Display

/-! # The printed set of positions identifies the group (C94) -/

namespace Verif

theorem full_small {n : HallSymbolNotation} {g : GeneralPositions} (hg : HasPositions n g) :
    ∀ m ∈ g.deriveFullSets.flatten, m.rot.Small := by
  intro m hm
  obtain ⟨set, hset, hm⟩ := List.mem_flatten.1 hm
  obtain ⟨v, hv, c, hc, rfl⟩ := mem_full.1 ⟨set, hset, hm⟩
  exact core_small hg c hc

/-- A text is printed iff it is the text of an operation of the full list. -/
theorem pure_txt_mem {g : GeneralPositions} {ts : List (List Char)} (h : g.pureTxt = .ok ts) (t : List Char) :
    t ∈ ts ↔ ∃ m ∈ g.deriveFullSets.flatten, m.jones = .ok t := by
  constructor
  · intro ht
    obtain ⟨k, hk, rfl⟩ := List.mem_iff_getElem.1 ht
    have hk' : k < g.deriveFullSets.flatten.length := pureTxt_length h ▸ hk
    obtain ⟨t', h1, h2⟩ := pure_txt_texts g ts h k _ (List.getElem?_eq_getElem hk')
    rw [List.getElem?_eq_getElem hk] at h1
    cases h1
    exact ⟨_, List.getElem_mem hk', h2⟩
  · rintro ⟨m, hm, ht⟩
    obtain ⟨k, hk, rfl⟩ := List.mem_iff_getElem.1 hm
    obtain ⟨t', h1, h2⟩ := pure_txt_texts g ts h k _ (List.getElem?_eq_getElem hk)
    rw [ht] at h2
    cases h2
    exact List.mem_of_getElem? h1

/-- Two listed operations with the same text are the same matrix. -/
theorem listed_text_inj {n n' : HallSymbolNotation} {g g' : GeneralPositions} (hg : HasPositions n g) (hg' : HasPositions n' g')
    {m m' : M4} (hm : m ∈ g.deriveFullSets.flatten) (hm' : m' ∈ g'.deriveFullSets.flatten) {t : List Char}
    (h : m.jones = .ok t) (h' : m'.jones = .ok t) : m = m' := by
  obtain ⟨na, nr⟩ := (positions_normalised hg).1 m (List.mem_append_right _ hm)
  obtain ⟨na', nr'⟩ := (positions_normalised hg').1 m' (List.mem_append_right _ hm')
  obtain ⟨s, f, e1, e2, e3⟩ := jones_denotes m (full_small hg m hm)
  obtain ⟨s', f', e1', e2', e3'⟩ := jones_denotes m' (full_small hg' m' hm')
  rw [h] at e1
  rw [h'] at e1'
  cases e1
  cases e1'
  rw [e2] at e2'
  cases e2'
  refine full_mem_eq ?_ na na' nr nr'
  obtain ⟨k, hk⟩ := e3
  obtain ⟨k', hk'⟩ := e3'
  refine ⟨k'.sub k, fun p => ?_⟩
  have h1 := (hk p).symm.trans (hk' p)
  simp only [Pt.addCell, Pt.mk.injEq] at h1
  obtain ⟨a, b, c⟩ := h1
  ext <;> simp only [Pt.addCell, V3.sub_x, V3.sub_y, V3.sub_z, Int.cast_sub] <;> linarith

/-- C94. The printed texts of the positions of a notation are pairwise different, and two consistent notations denote the
same group exactly when they print the same set of texts, in whatever order. -/
theorem printed_set_identifies {n n' : HallSymbolNotation} {g g' : GeneralPositions} (hn : Consistent n)
    (hn' : Consistent n') (hg : HasPositions n g) (hg' : HasPositions n' g') :
    ∃ ts ts', g.pureTxt = .ok ts ∧ g'.pureTxt = .ok ts' ∧ ts.Nodup ∧ ts'.Nodup ∧
      ((∀ t, t ∈ ts ↔ t ∈ ts') ↔ ∀ f, SpaceGroup n f ↔ SpaceGroup n' f) := by
  obtain ⟨ts, hts⟩ := text_listing_total g (core_small hg)
  obtain ⟨ts', hts'⟩ := text_listing_total g' (core_small hg')
  have hnd : ∀ {n : HallSymbolNotation} {g : GeneralPositions} {ts : List (List Char)}, HasPositions n g → g.pureTxt = .ok ts →
      ts.Nodup := by
    intro n g ts hg h
    rw [List.nodup_iff_injective_getElem]
    intro i j hij
    have hl := pureTxt_length h
    obtain ⟨t1, a1, a2⟩ := pure_txt_texts g ts h i _ (List.getElem?_eq_getElem (hl ▸ i.2))
    obtain ⟨t2, b1, b2⟩ := pure_txt_texts g ts h j _ (List.getElem?_eq_getElem (hl ▸ j.2))
    rw [List.getElem?_eq_getElem i.2] at a1
    rw [List.getElem?_eq_getElem j.2] at b1
    cases a1
    cases b1
    simp only at hij
    have := listed_text_inj hg hg (List.getElem_mem _) (List.getElem_mem _) a2 (hij ▸ b2)
    exact Fin.ext ((full_nodup hg).getElem_inj_iff.1 this)
  refine ⟨ts, ts', hts, hts', hnd hg hts, hnd hg' hts', ?_⟩
  have htext : ∀ m ∈ g.deriveFullSets.flatten, ∃ t, m.jones = .ok t := fun m hm => by
    obtain ⟨t, _, h, _⟩ := jones_denotes m (full_small hg m hm); exact ⟨t, h⟩
  have htext' : ∀ m ∈ g'.deriveFullSets.flatten, ∃ t, m.jones = .ok t := fun m hm => by
    obtain ⟨t, _, h, _⟩ := jones_denotes m (full_small hg' m hm); exact ⟨t, h⟩
  constructor
  · intro h f
    rw [positions_complete hg hn, positions_complete hg' hn']
    constructor
    · rintro ⟨set, hset, m, hm, hs⟩
      have hm : m ∈ g.deriveFullSets.flatten := List.mem_flatten.2 ⟨set, hset, hm⟩
      obtain ⟨t, ht⟩ := htext m hm
      obtain ⟨m', hm', ht'⟩ := (pure_txt_mem hts' t).1 ((h t).1 ((pure_txt_mem hts t).2 ⟨m, hm, ht⟩))
      obtain rfl := listed_text_inj hg hg' hm hm' ht ht'
      obtain ⟨set', h1, h2⟩ := List.mem_flatten.1 hm'
      exact ⟨set', h1, m, h2, hs⟩
    · rintro ⟨set, hset, m, hm, hs⟩
      have hm : m ∈ g'.deriveFullSets.flatten := List.mem_flatten.2 ⟨set, hset, hm⟩
      obtain ⟨t, ht⟩ := htext' m hm
      obtain ⟨m', hm', ht'⟩ := (pure_txt_mem hts t).1 ((h t).2 ((pure_txt_mem hts' t).2 ⟨m, hm, ht⟩))
      obtain rfl := listed_text_inj hg hg' hm' hm ht' ht
      obtain ⟨set', h1, h2⟩ := List.mem_flatten.1 hm'
      exact ⟨set', h1, m', h2, hs⟩
  · intro h t
    rw [pure_txt_mem hts, pure_txt_mem hts']
    have h' : SameGroup n n' := h
    exact ⟨fun ⟨m, hm, ht⟩ => ⟨m, full_subset hg hg' hn' h' m hm, ht⟩,
      fun ⟨m, hm, ht⟩ => ⟨m, full_subset hg' hg hn h'.symm m hm, ht⟩⟩

/-- A case: `-P 2c 2b` and `P 2c 2b -1` are different notations of one group with 8 positions. -/
example : Consistent (hall "-P 2c 2b") ∧ Consistent (hall "P 2c 2b -1") ∧
    HasPositions (hall "-P 2c 2b") (positionsOf "-P 2c 2b") ∧ HasPositions (hall "P 2c 2b -1") (positionsOf "P 2c 2b -1") ∧
    (positionsOf "-P 2c 2b").deriveFullSets.flatten.length = 8 ∧ hall "-P 2c 2b" ≠ hall "P 2c 2b -1" :=
  ⟨consistent_by_check (by decide +kernel), consistent_by_check (by decide +kernel), positionsOf_spec (by decide +kernel),
    positionsOf_spec (by decide +kernel), by decide +kernel, by decide +kernel⟩

/-! ## The whole text of `text_format` -/

/-- The words of numbered lines. -/
def lineWords (start : Nat) : List (List Char) → List (List Char)
  | [] => []
  | t :: ts => (Nat.toDigits 10 start ++ [',']) :: t :: lineWords (start + 1) ts

theorem digits_solid (k : Nat) : Solid (Nat.toDigits 10 k ++ [',']) :=
  (natText_solid k).append (cons_solid (by decide) (fun c hc => by simp at hc))

theorem words_lineText (k : Nat) {t : List Char} (ht : Plain t) (hne : t ≠ []) :
    words (lineText k t) = [Nat.toDigits 10 k ++ [','], t] := by
  have : lineText k t = (Nat.toDigits 10 k ++ [',']) ++ ' ' :: t := by simp [lineText]
  rw [this, words_piece (digits_solid k) (by simp) (.inl rfl), words_solid ht.solid hne]

theorem words_setLines (start : Nat) {ts : List (List Char)} (h : ∀ t ∈ ts, Plain t ∧ t ≠ []) :
    (setLines start ts).flatMap words = lineWords start ts := by
  have key : ∀ (ts : List (List Char)) (start : Nat), (∀ t ∈ ts, Plain t ∧ t ≠ []) →
      ((List.range ts.length).zipWith (fun i t => lineText (start + i) t) ts).flatMap words = lineWords start ts := by
    intro ts
    induction ts with
    | nil => intro _ _; rfl
    | cons t ts ih =>
      intro start h
      have := ih (start + 1) (fun t ht => h t (List.mem_cons_of_mem _ ht))
      rw [List.length_cons, List.range_succ_eq_map, List.zipWith_cons_cons, List.flatMap_cons, Nat.add_zero,
        words_lineText _ (h t (List.mem_cons_self ..)).1 (h t (List.mem_cons_self ..)).2, lineWords, ← this,
        List.zipWith_map_left]
      simp only [Nat.succ_eq_add_one, List.cons_append, List.nil_append]
      have hf : (fun (a : Nat) (b : List Char) => lineText (start + (a + 1)) b) = fun i t => lineText (start + 1 + i) t := by
        funext i t
        rw [show start + (i + 1) = start + 1 + i by omega]
      rw [hf]
  unfold setLines
  split
  · rename_i e; subst e; rfl
  · exact key ts start h

theorem digits_head (k : Nat) (x : List Char) : ∀ c ∈ (Nat.toDigits 10 k ++ x).head?, c ≠ '[' := by
  intro c hc
  cases hd : Nat.toDigits 10 k with
  | nil => exact absurd hd Nat.toDigits_ne_nil
  | cons d ds =>
    rw [hd] at hc
    simp at hc
    subst hc
    have : d.isDigit := Nat.isDigit_of_mem_toDigits (b := 10) (n := k) (by omega) (by omega) (by rw [hd]; simp)
    rintro rfl
    exact absurd this (by decide)

/-- Numbered lines followed by something that is empty or starts with a bracket are determined by their words. -/
theorem lineWords_inj {ts ts' : List (List Char)} {start : Nat} {r r' : List (List Char)}
    (hr : ∀ w ∈ r.head?, ∃ x, w = '[' :: x) (hr' : ∀ w ∈ r'.head?, ∃ x, w = '[' :: x)
    (e : lineWords start ts ++ r = lineWords start ts' ++ r') : ts = ts' ∧ r = r' := by
  have nohead : ∀ {start : Nat} {t : List Char} {ts r r' : List (List Char)}, (∀ w ∈ r.head?, ∃ x, w = '[' :: x) →
      lineWords start (t :: ts) ++ r' ≠ r := by
    intro start t ts r r' hr e
    rw [← e] at hr
    obtain ⟨x, hx⟩ := hr (Nat.toDigits 10 start ++ [',']) rfl
    exact digits_head start [','] '[' (by rw [hx]; rfl) rfl
  induction ts generalizing ts' start with
  | nil =>
    cases ts' with
    | nil => exact ⟨rfl, e⟩
    | cons t' ts' => exact absurd e.symm (nohead hr)
  | cons t ts ih =>
    cases ts' with
    | nil => exact absurd e (nohead hr')
    | cons t' ts' =>
      simp only [lineWords, List.cons_append, List.cons.injEq, true_and] at e
      obtain ⟨h1, h2⟩ := ih e.2
      exact ⟨by rw [e.1, h1], h2⟩

theorem words_expectedLines_cons (start : Nat) (v : V3) {ts : List (List Char)} (h : ∀ t ∈ ts, Plain t ∧ t ≠ [])
    (rest : List (V3 × List (List Char))) :
    (expectedLines start ((v, ts) :: rest)).flatMap words =
      ['[' :: (GeneralPositions.fracTextInt v.x ++ [',']), GeneralPositions.fracTextInt v.y ++ [','],
        GeneralPositions.fracTextInt v.z ++ [']'], ['+'], ['s', 'e', 't']] ++
      (lineWords start ts ++ (expectedLines (start + ts.length) rest).flatMap words) := by
  have hh : words (GeneralPositions.heading v) = ['[' :: (GeneralPositions.fracTextInt v.x ++ [',']),
      GeneralPositions.fracTextInt v.y ++ [','], GeneralPositions.fracTextInt v.z ++ [']'], ['+'], ['s', 'e', 't']] := by
    have := heading_words v []
    rw [words_sep (.inr rfl)] at this
    simpa [words, wordsFrom] using this
  rw [expectedLines, List.flatMap_append, List.flatMap_cons, words_setLines start h, hh, List.append_assoc]

theorem expectedLines_inj {p p' : List (V3 × List (List Char))} {start : Nat}
    (h : ∀ q ∈ p, ∀ t ∈ q.2, Plain t ∧ t ≠ []) (h' : ∀ q ∈ p', ∀ t ∈ q.2, Plain t ∧ t ≠ [])
    (e : (expectedLines start p).flatMap words = (expectedLines start p').flatMap words) : p = p' := by
  have hd : ∀ (q : List (V3 × List (List Char))) (start : Nat), (∀ x ∈ q, ∀ t ∈ x.2, Plain t ∧ t ≠ []) →
      ∀ w ∈ ((expectedLines start q).flatMap words).head?, ∃ x, w = '[' :: x := by
    intro q start hq w hw
    cases q with
    | nil => simp [expectedLines] at hw
    | cons x q =>
      obtain ⟨v, ts⟩ := x
      rw [words_expectedLines_cons start v (hq _ (List.mem_cons_self ..))] at hw
      simp at hw
      exact ⟨_, hw.symm⟩
  induction p generalizing p' start with
  | nil =>
    cases p' with
    | nil => rfl
    | cons x p' =>
      obtain ⟨v, ts⟩ := x
      rw [words_expectedLines_cons start v (h' _ (List.mem_cons_self ..))] at e
      simp [expectedLines] at e
  | cons x p ih =>
    obtain ⟨v, ts⟩ := x
    have ht := h _ (List.mem_cons_self ..)
    have hp : ∀ q ∈ p, ∀ t ∈ q.2, Plain t ∧ t ≠ [] := fun q hq => h q (List.mem_cons_of_mem _ hq)
    rw [words_expectedLines_cons start v ht] at e
    cases p' with
    | nil => simp [expectedLines] at e
    | cons x' p' =>
      obtain ⟨v', ts'⟩ := x'
      have ht' := h' _ (List.mem_cons_self ..)
      have hp' : ∀ q ∈ p', ∀ t ∈ q.2, Plain t ∧ t ≠ [] := fun q hq => h' q (List.mem_cons_of_mem _ hq)
      rw [words_expectedLines_cons start v' ht'] at e
      simp only [List.cons_append, List.nil_append, List.cons.injEq, true_and] at e
      obtain ⟨ex, ey, ez, er⟩ := e
      have hv : v = v' := V3.ext (fracTextInt_inj (List.append_cancel_right ex)) (fracTextInt_inj (List.append_cancel_right ey))
        (fracTextInt_inj (List.append_cancel_right ez))
      obtain ⟨e1, e2⟩ := lineWords_inj (hd p _ hp) (hd p' _ hp') er
      subst e1
      rw [hv, ih hp hp' e2]

theorem cut_fst (size : Nat) (vs : List V3) (ts : List (List Char)) : (cut size vs ts).map Prod.fst = vs := by
  induction vs generalizing ts with
  | nil => rfl
  | cons v vs ih => rw [cut, List.map_cons, ih]

theorem cut_snd (size : Nat) (vs : List V3) (ts : List (List Char)) (h : ts.length = vs.length * size) :
    ((cut size vs ts).map Prod.snd).flatten = ts := by
  induction vs generalizing ts with
  | nil => rw [List.length_nil, Nat.zero_mul, List.length_eq_zero_iff] at h; subst h; rfl
  | cons v vs ih =>
    rw [cut, List.map_cons, List.flatten_cons, ih, List.take_append_drop]
    rw [List.length_drop, h, List.length_cons, Nat.add_mul]
    omega

theorem cut_mem (size : Nat) (vs : List V3) (ts : List (List Char)) : ∀ q ∈ cut size vs ts, ∀ t ∈ q.2, t ∈ ts := by
  induction vs generalizing ts with
  | nil => intro q hq; simp [cut] at hq
  | cons v vs ih =>
    intro q hq t ht
    rw [cut, List.mem_cons] at hq
    rcases hq with rfl | hq
    · exact List.mem_of_mem_take ht
    · exact List.mem_of_mem_drop (ih _ q hq t ht)

/-- C94. The text of `text_format` determines the lattice translations and the printed texts, in order, for any positions. -/
theorem text_format_determines {g h : GeneralPositions} {s : List Char} (hg : g.textFormat = .ok s) (hh : h.textFormat = .ok s) :
    g.latticeTranslations = h.latticeTranslations ∧ g.pureTxt = h.pureTxt := by
  have texts : ∀ {g : GeneralPositions}, g.textFormat = .ok s → ∃ ts, g.pureTxt = .ok ts ∧
      ts.length = g.latticeTranslations.length * g.numOfGeneralPos ∧
      s = M4.joinWith ['\n'] (expectedLines 1 (cut g.numOfGeneralPos g.latticeTranslations ts)) ∧ ∀ t ∈ ts, Plain t ∧ t ≠ [] := by
    intro g hg
    obtain ⟨h1, h2⟩ := text_listing g
    cases hp : g.pureTxt with
    | error e => rw [h1 e hp] at hg; cases hg
    | ok ts =>
      obtain ⟨h3, h4⟩ := h2 ts hp
      rw [hg] at h4
      refine ⟨ts, rfl, h3, Except.ok.inj h4, ?_⟩
      intro t ht
      obtain ⟨m, _, hm⟩ := (pure_txt_mem hp t).1 ht
      exact jones_plain hm
  obtain ⟨ts, a1, a2, a3, a4⟩ := texts hg
  obtain ⟨ts', b1, b2, b3, b4⟩ := texts hh
  have e := congrArg words (a3.symm.trans b3)
  rw [words_join, words_join] at e
  have hc := expectedLines_inj (fun q hq t ht => a4 t (cut_mem _ _ _ q hq t ht)) (fun q hq t ht => b4 t (cut_mem _ _ _ q hq t ht)) e
  have e1 := congrArg (List.map Prod.fst) hc
  have e2 := congrArg (fun l => (l.map Prod.snd).flatten) hc
  simp only [cut_fst] at e1
  simp only [cut_snd _ _ _ a2, cut_snd _ _ _ b2] at e2
  exact ⟨e1, by rw [a1, b1, e2]⟩

theorem texts_full_eq {n n' : HallSymbolNotation} {g g' : GeneralPositions} (hg : HasPositions n g) (hg' : HasPositions n' g')
    (h : g.pureTxt = g'.pureTxt) : g.deriveFullSets.flatten = g'.deriveFullSets.flatten := by
  obtain ⟨ts, hts⟩ := text_listing_total g (core_small hg)
  have hts' := h ▸ hts
  apply List.ext_getElem?
  intro k
  have hl : g.deriveFullSets.flatten.length = g'.deriveFullSets.flatten.length :=
    (pureTxt_length hts).symm.trans (pureTxt_length hts')
  by_cases hk : k < g.deriveFullSets.flatten.length
  · rw [List.getElem?_eq_getElem hk, List.getElem?_eq_getElem (hl ▸ hk)]
    obtain ⟨t, h1, h2⟩ := pure_txt_texts g ts hts k _ (List.getElem?_eq_getElem hk)
    obtain ⟨t', h1', h2'⟩ := pure_txt_texts g' ts hts' k _ (List.getElem?_eq_getElem (hl ▸ hk))
    rw [h1] at h1'
    cases h1'
    exact congrArg some (listed_text_inj hg hg' (List.getElem_mem _) (List.getElem_mem _) h2 h2')
  · rw [List.getElem?_eq_none (by omega), List.getElem?_eq_none (by omega)]

/-- The core positions are the first set of the full list. -/
theorem core_first {n : HallSymbolNotation} {g : GeneralPositions} (hg : HasPositions n g) :
    g.deriveFullSets.flatten.take g.corePositionSet.length = g.corePositionSet := by
  have hz : ∃ vs, g.latticeTranslations = V3.zero :: vs := by
    obtain ⟨k, hk⟩ := hg
    obtain ⟨_, _, _, hl⟩ := final_of_ok hk
    rw [hl]
    unfold LatticeSymbol.translations
    cases n.latticeSymbol.char <;> exact ⟨_, rfl⟩
  obtain ⟨vs, hv⟩ := hz
  have hid : g.corePositionSet.map (fun m => m.addV V3.zero) = g.corePositionSet := by
    conv_rhs => rw [← List.map_id g.corePositionSet]
    apply List.map_congr_left
    intro m hm
    obtain ⟨⟨a1, a2⟩, b1, b2, b3⟩ := (positions_normalised hg).1 m (List.mem_append_left _ hm)
    obtain ⟨r, ⟨x, y, z⟩, b, w⟩ := m
    simp only at a1 a2 b1 b2 b3
    subst a1 a2
    simp only [M4.addV, id]
    congr 1
    ext <;> simp [V3.map, V3.zero, base] <;> exact Int.tmod_eq_of_lt (by omega) (by omega)
  unfold GeneralPositions.deriveFullSets
  rw [hv, List.map_cons, List.flatten_cons, List.take_append_of_le_length (by simp)]
  rw [List.take_of_length_le (by simp)]
  exact hid

/-- C94. For positions computed from notations: the text of `text_format` is the same iff the positions are the same,
translations, operations and order. -/
theorem text_format_iff {n n' : HallSymbolNotation} {g g' : GeneralPositions} (hg : HasPositions n g) (hg' : HasPositions n' g') :
    (∃ s, g.textFormat = .ok s) ∧ (g.textFormat = g'.textFormat ↔ g = g') := by
  have hok : ∀ {n : HallSymbolNotation} {g : GeneralPositions}, HasPositions n g → ∃ s, g.textFormat = .ok s := by
    intro n g hg
    obtain ⟨ts, hts⟩ := text_listing_total g (core_small hg)
    exact ⟨_, ((text_listing g).2 ts hts).2⟩
  refine ⟨hok hg, ?_, fun h => by rw [h]⟩
  intro h
  obtain ⟨s, hs⟩ := hok hg
  obtain ⟨h1, h2⟩ := text_format_determines hs (h ▸ hs)
  have hfull := texts_full_eq hg hg' h2
  have hlen : g.corePositionSet.length = g'.corePositionSet.length := by
    have e := congrArg List.length hfull
    have key : ∀ g : GeneralPositions, g.deriveFullSets.flatten.length = g.latticeTranslations.length * g.corePositionSet.length := by
      intro g
      unfold GeneralPositions.deriveFullSets
      generalize g.latticeTranslations = vs
      induction vs with
      | nil => simp
      | cons v vs ih =>
        rw [List.map_cons, List.flatten_cons, List.length_append, ih, List.length_map, List.length_cons, Nat.add_mul]
        omega
    rw [key, key, h1] at e
    refine Nat.eq_of_mul_eq_mul_left ?_ e
    obtain ⟨k, hk⟩ := hg'
    obtain ⟨_, _, _, hl⟩ := final_of_ok hk
    rw [hl]
    unfold LatticeSymbol.translations
    cases n'.latticeSymbol.char <;> decide
  have hcore : g.corePositionSet = g'.corePositionSet := by
    rw [← core_first hg, ← core_first hg', hfull, hlen]
  obtain ⟨a, b⟩ := g
  obtain ⟨a', b'⟩ := g'
  simp only at h1 hcore
  rw [h1, hcore]

/-- A case: `I 2` and `I 2n` are the same group listed in different ways, so their texts differ. -/
example : HasPositions (hall "I 2") (positionsOf "I 2") ∧ HasPositions (hall "I 2n") (positionsOf "I 2n") ∧
    (positionsOf "I 2").textFormat ≠ (positionsOf "I 2n").textFormat :=
  ⟨positionsOf_spec (by decide +kernel), positionsOf_spec (by decide +kernel), by decide +kernel⟩

end Verif
