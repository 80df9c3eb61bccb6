import Mathlib.Data.Nat.Digits.Defs
import Mathlib.Tactic.FieldSimp
import Verif.Model.Display
import Verif.Props.Text
import Verif.Props.Algebra
import Verif.Props.Generation

/-! # The complete displayed texts (C90) -/

namespace Verif

/-! ## Words: the pieces of a text between blanks and line ends -/

/-- The pieces between blanks and line ends; `cur` is the piece read so far. -/
def wordsFrom (cur : List Char) : List Char → List (List Char)
  | [] => if cur = [] then [] else [cur]
  | c :: l => if c = ' ' ∨ c = '\n' then (if cur = [] then [] else [cur]) ++ wordsFrom [] l else wordsFrom (cur ++ [c]) l

/-- The pieces of a text between blanks and line ends. -/
def words (l : List Char) : List (List Char) := wordsFrom [] l

/-- No blank and no line end. -/
def Solid (l : List Char) : Prop := ∀ c ∈ l, c ≠ ' ' ∧ c ≠ '\n'

theorem Solid.append {a b : List Char} (ha : Solid a) (hb : Solid b) : Solid (a ++ b) := by
  intro c hc
  rcases List.mem_append.1 hc with h | h
  · exact ha c h
  · exact hb c h

theorem wordsFrom_sep (c : Char) (hc : c = ' ' ∨ c = '\n') (a b cur : List Char) :
    wordsFrom cur (a ++ c :: b) = wordsFrom cur a ++ words b := by
  induction a generalizing cur with
  | nil => simp only [List.nil_append, wordsFrom, if_pos hc]; rfl
  | cons d a ih =>
    simp only [List.cons_append, wordsFrom]
    split
    · rw [ih, List.append_assoc]
    · exact ih _

theorem words_sep {c : Char} (hc : c = ' ' ∨ c = '\n') (a b : List Char) : words (a ++ c :: b) = words a ++ words b :=
  wordsFrom_sep c hc a b []

theorem words_sep_cons {c : Char} (hc : c = ' ' ∨ c = '\n') (b : List Char) : words (c :: b) = words b :=
  words_sep hc [] b

theorem wordsFrom_solid {a : List Char} (h : Solid a) (cur : List Char) :
    wordsFrom cur a = if cur ++ a = [] then [] else [cur ++ a] := by
  induction a generalizing cur with
  | nil => simp [wordsFrom]
  | cons d a ih =>
    have hd := h d (List.mem_cons_self ..)
    rw [wordsFrom, if_neg (by rintro (e | e); exacts [hd.1 e, hd.2 e]), ih (fun c hc => h c (List.mem_cons_of_mem _ hc))]
    simp

theorem words_solid {a : List Char} (h : Solid a) (hne : a ≠ []) : words a = [a] := by
  rw [words, wordsFrom_solid h]; simp [hne]

theorem words_blanks (n : Nat) (l : List Char) : words (List.replicate n ' ' ++ l) = words l := by
  induction n with
  | zero => rfl
  | succ n ih => rw [List.replicate_succ, List.cons_append, words_sep_cons (.inl rfl), ih]

/-- A solid piece followed by a separator. -/
theorem words_piece {a : List Char} (h : Solid a) (hne : a ≠ []) {c : Char} (hc : c = ' ' ∨ c = '\n') (b : List Char) :
    words (a ++ c :: b) = a :: words b := by
  rw [words_sep hc, words_solid h hne]; rfl

theorem words_join (l : List (List Char)) : words (M4.joinWith ['\n'] l) = l.flatMap words := by
  induction l with
  | nil => rfl
  | cons a l ih =>
    cases l with
    | nil => simp [M4.joinWith]
    | cons b l =>
      rw [joinWith_cons _ _ (by simp), List.append_assoc, List.singleton_append, words_sep (.inr rfl), ih]
      rfl

/-! ## Texts of numbers -/

theorem natText_digit {n : Nat} : ∀ c ∈ M4.natText n, c.isDigit := fun _ hc => Nat.isDigit_of_mem_toDigits (by omega) (by omega) hc

theorem natText_ne_nil (n : Nat) : M4.natText n ≠ [] := Nat.toDigits_ne_nil

theorem natText_inj {a b : Nat} (h : M4.natText a = M4.natText b) : a = b := by
  have := congrArg (Nat.ofDigitChars 10 · 0) h
  simpa [M4.natText] using this


theorem split_unique {p : Char → Bool} {a b t t' : List Char} (ha : ∀ c ∈ a, p c) (hb : ∀ c ∈ b, p c)
    (ht : ∀ c ∈ t.head?, p c = false) (ht' : ∀ c ∈ t'.head?, p c = false) (h : a ++ t = b ++ t') : a = b ∧ t = t' := by
  have key : ∀ {a t : List Char}, (∀ c ∈ a, p c) → (∀ c ∈ t.head?, p c = false) → (a ++ t).takeWhile p = a := by
    intro a t ha ht
    rw [List.takeWhile_append_of_pos ha]
    cases t with
    | nil => simp
    | cons c t => simp [ht c (by simp)]
  have e := congrArg (List.takeWhile p) h
  rw [key ha ht, key hb ht'] at e
  subst e
  exact ⟨rfl, List.append_cancel_left h⟩

theorem ratText_inj {q r : Rat} (h : ratText q = ratText r) : q = r := by
  have tail : ∀ q : Rat, ∀ c ∈ (if q.den = 1 then [] else '/' :: M4.natText q.den).head?, c.isDigit = false := by
    intro q c hc
    split at hc
    · simp at hc
    · simp at hc; rw [← hc]; decide
  have body : ∀ q : Rat, M4.natText q.num.natAbs ≠ [] := fun q => natText_ne_nil _
  have key : ∀ q r : Rat, M4.natText q.num.natAbs ++ (if q.den = 1 then [] else '/' :: M4.natText q.den)
      = M4.natText r.num.natAbs ++ (if r.den = 1 then [] else '/' :: M4.natText r.den) →
      q.num.natAbs = r.num.natAbs ∧ q.den = r.den := by
    intro q r h
    obtain ⟨h1, h2⟩ := split_unique (p := Char.isDigit) natText_digit natText_digit (tail q) (tail r) h
    refine ⟨natText_inj h1, ?_⟩
    by_cases hq : q.den = 1 <;> by_cases hr : r.den = 1 <;> simp only [hq, hr, if_true, if_false] at h2 ⊢
    · cases h2
    · cases h2
    · exact natText_inj (List.cons.inj h2).2
  have nodash : ∀ (q r : Rat), '-' :: (M4.natText q.num.natAbs ++ (if q.den = 1 then [] else '/' :: M4.natText q.den))
      ≠ M4.natText r.num.natAbs ++ (if r.den = 1 then [] else '/' :: M4.natText r.den) := by
    intro q r h
    cases e : M4.natText r.num.natAbs with
    | nil => exact body r e
    | cons c l =>
      rw [e] at h
      have h1 : '-' = c := (List.cons.inj h).1
      have h2 := natText_digit (n := r.num.natAbs) c (by rw [e]; exact List.mem_cons_self ..)
      rw [← h1] at h2
      revert h2; decide
  unfold ratText at h
  simp only [List.append_assoc] at h
  by_cases hq : q < 0 <;> by_cases hr : r < 0 <;> simp only [hq, hr, if_true, if_false, List.nil_append, List.singleton_append] at h
  · obtain ⟨h1, h2⟩ := key q r (List.cons.inj h).2
    have := Rat.num_neg.2 hq
    have := Rat.num_neg.2 hr
    exact Rat.ext (by omega) h2
  · exact absurd h (nodash q r)
  · exact absurd h.symm (nodash r q)
  · obtain ⟨h1, h2⟩ := key q r h
    have := Rat.num_nonneg.2 (not_lt.1 hq)
    have := Rat.num_nonneg.2 (not_lt.1 hr)
    exact Rat.ext (by omega) h2

theorem fracText_inj {a b : Nat} (h : M4.fracText a = M4.fracText b) : a = b := by
  have tail : ∀ d : Nat, ∀ c ∈ (if d = 1 then [] else '/' :: M4.natText d).head?, c.isDigit = false := by
    intro q c hc
    split at hc
    · simp at hc
    · simp at hc; rw [← hc]; decide
  have e : ∀ n, M4.fracText n = M4.natText (n / Nat.gcd n 12) ++ (if 12 / Nat.gcd n 12 = 1 then [] else
      '/' :: M4.natText (12 / Nat.gcd n 12)) := by
    intro n; unfold M4.fracText; simp only []; split <;> simp
  rw [e, e] at h
  obtain ⟨h1, h2⟩ := split_unique (p := Char.isDigit) natText_digit natText_digit (tail _) (tail _) h
  have h1 := natText_inj h1
  have h3 : 12 / Nat.gcd a 12 = 12 / Nat.gcd b 12 := by
    by_cases hq : 12 / Nat.gcd a 12 = 1 <;> by_cases hr : 12 / Nat.gcd b 12 = 1 <;>
      simp only [hq, hr, if_true, if_false] at h2 ⊢
    · cases h2
    · cases h2
    · exact natText_inj (List.cons.inj h2).2
  have h4 : Nat.gcd a 12 = Nat.gcd b 12 := by
    have ha := Nat.mul_div_cancel' (Nat.gcd_dvd_right a 12)
    have hb := Nat.mul_div_cancel' (Nat.gcd_dvd_right b 12)
    rw [← h3] at hb
    have : 0 < 12 / Nat.gcd a 12 := Nat.div_pos (Nat.gcd_le_right _ (by omega)) (Nat.gcd_pos_of_pos_right _ (by omega))
    exact Nat.eq_of_mul_eq_mul_right this (ha.trans hb.symm)
  rw [← Nat.mul_div_cancel' (Nat.gcd_dvd_left a 12), ← Nat.mul_div_cancel' (Nat.gcd_dvd_left b 12), h1, h4]

theorem fracText_head {n : Nat} : ∃ c l, M4.fracText n = c :: l ∧ c.isDigit := by
  cases e : M4.natText (n / Nat.gcd n 12) with
  | nil => exact absurd e (natText_ne_nil _)
  | cons c l =>
    have hd := natText_digit (n := n / Nat.gcd n 12) c (by rw [e]; exact List.mem_cons_self ..)
    unfold M4.fracText
    simp only [e]
    split
    · exact ⟨c, l, rfl, hd⟩
    · exact ⟨c, _, rfl, hd⟩

theorem fracTextInt_inj {a b : Int} (h : GeneralPositions.fracTextInt a = GeneralPositions.fracTextInt b) : a = b := by
  unfold GeneralPositions.fracTextInt at h
  have nodash : ∀ m n : Nat, '-' :: M4.fracText m ≠ M4.fracText n := by
    intro m n h
    obtain ⟨c, l, e, hc⟩ := fracText_head (n := n)
    rw [e] at h
    rw [← (List.cons.inj h).1] at hc
    revert hc; decide
  by_cases ha : a < 0 <;> by_cases hb : b < 0 <;> simp only [ha, hb, if_true, if_false] at h
  · have := fracText_inj (List.cons.inj h).2; omega
  · exact absurd h (nodash _ _)
  · exact absurd h.symm (nodash _ _)
  · have := fracText_inj h; omega

/-! ## Solid pieces -/

theorem digit_solid {l : List Char} (h : ∀ c ∈ l, c.isDigit) : Solid l := by
  intro c hc
  have := h c hc
  constructor <;> rintro rfl <;> revert this <;> decide

theorem natText_solid (n : Nat) : Solid (M4.natText n) := digit_solid natText_digit

theorem cons_solid {c : Char} {l : List Char} (hc : c ≠ ' ' ∧ c ≠ '\n') (h : Solid l) : Solid (c :: l) := by
  intro d hd
  rcases List.mem_cons.1 hd with rfl | hd
  · exact hc
  · exact h d hd

theorem ratText_solid (q : Rat) : Solid (ratText q) := by
  unfold ratText
  refine Solid.append (Solid.append ?_ (natText_solid _)) ?_
  · split
    · exact cons_solid (by decide) (fun c hc => by simp at hc)
    · exact fun c hc => by simp at hc
  · split
    · exact fun c hc => by simp at hc
    · exact cons_solid (by decide) (natText_solid _)

theorem ratText_ne_nil (q : Rat) : ratText q ≠ [] := by
  unfold ratText
  intro h
  exact natText_ne_nil _ (List.append_eq_nil_iff.1 (List.append_eq_nil_iff.1 h).1).2

theorem intText_solid (v : Int) : Solid (OriginShift.intText v) := by
  unfold OriginShift.intText
  split
  · exact cons_solid (by decide) (natText_solid _)
  · exact natText_solid _

theorem fracText_solid (n : Nat) : Solid (M4.fracText n) := by
  unfold M4.fracText
  simp only []
  split
  · exact natText_solid _
  · exact (natText_solid _).append (cons_solid (by decide) (natText_solid _))

theorem fracTextInt_solid (v : Int) : Solid (GeneralPositions.fracTextInt v) := by
  unfold GeneralPositions.fracTextInt
  split
  · exact cons_solid (by decide) (fracText_solid _)
  · exact fracText_solid _


/-! ## The Jones text is one piece that does not start with a bracket -/

/-- Neither blank nor line end nor opening bracket. -/
def Plain (l : List Char) : Prop := ∀ c ∈ l, c ≠ ' ' ∧ c ≠ '\n' ∧ c ≠ '['

theorem Plain.solid {l : List Char} (h : Plain l) : Solid l := fun c hc => ⟨(h c hc).1, (h c hc).2.1⟩

theorem Plain.append {a b : List Char} (ha : Plain a) (hb : Plain b) : Plain (a ++ b) := by
  intro c hc
  rcases List.mem_append.1 hc with h | h
  · exact ha c h
  · exact hb c h

theorem Plain.cons {c : Char} {l : List Char} (hc : c ≠ ' ' ∧ c ≠ '\n' ∧ c ≠ '[') (h : Plain l) : Plain (c :: l) := by
  intro d hd
  rcases List.mem_cons.1 hd with rfl | hd
  · exact hc
  · exact h d hd

theorem Plain.nil : Plain [] := fun c hc => by simp at hc

theorem natText_plain (n : Nat) : Plain (M4.natText n) := by
  intro c hc
  have := natText_digit c hc
  refine ⟨?_, ?_, ?_⟩ <;> rintro rfl <;> revert this <;> decide

theorem fracText_plain (n : Nat) : Plain (M4.fracText n) := by
  unfold M4.fracText
  simp only []
  split
  · exact natText_plain _
  · exact (natText_plain _).append (.cons (by decide) (natText_plain _))

theorem translationText_plain (v : Int) : Plain (M4.translationText v) := by
  unfold M4.translationText
  generalize (if -base + 1 ≤ v ∧ v < base then v else Int.tmod v base) = r
  simp only []
  split
  · exact .cons (by decide) (fracText_plain _)
  · split
    · exact .nil
    · exact .cons (by decide) (fracText_plain _)

theorem entryText_plain {c : Nat} (hc : 120 ≤ c) {v : Int} {t : List Char} (h : M4.entryText c v = .ok t) : Plain t := by
  unfold M4.entryText at h
  simp only [] at h
  cases hch : M4.charFromU32 ((c : Int) * v).natAbs with
  | error e => rw [hch] at h; cases h
  | ok ch =>
    rw [hch] at h
    simp only [] at h
    have hn : ch.toNat = ((c : Int) * v).natAbs := by
      unfold M4.charFromU32 at hch
      split at hch
      · cases hch; rfl
      · cases hch
    by_cases h0 : (c : Int) * v = 0
    · rw [if_neg (by omega), if_pos h0] at h
      cases h
      exact .cons (by decide) .nil
    · have hbig : 120 ≤ ch.toNat := by
        have hv : v ≠ 0 := fun e => h0 (by rw [e, Int.mul_zero])
        rw [hn, Int.natAbs_mul, Int.natAbs_natCast]
        calc 120 = 120 * 1 := rfl
          _ ≤ c * v.natAbs := Nat.mul_le_mul hc (by omega)
      have hp : Plain [ch] := by
        apply Plain.cons _ .nil
        refine ⟨?_, ?_, ?_⟩ <;> rintro rfl <;> revert hbig <;> decide
      split at h
      · cases h; exact .cons (by decide) hp
      · cases h; exact .cons (by decide) hp

theorem rowText_plain {a b c : Int} {t : List Char} (h : M4.rowText a b c = .ok t) : Plain t := by
  unfold M4.rowText at h
  cases ha : M4.entryText 120 a with
  | error e => rw [ha] at h; cases h
  | ok ta =>
  cases hb : M4.entryText 121 b with
  | error e => rw [ha, hb] at h; cases h
  | ok tb =>
  cases hc : M4.entryText 122 c with
  | error e => rw [ha, hb, hc] at h; cases h
  | ok tc =>
    rw [ha, hb, hc] at h
    have h' : t = ((ta ++ tb ++ tc).filter (· ≠ '0')).dropWhile (· = '+') := by cases h; rfl
    rw [h']
    intro ch hch
    exact ((((entryText_plain (by decide) ha).append (entryText_plain (by decide) hb)).append
      (entryText_plain (by decide) hc)) ch (List.mem_of_mem_filter (List.dropWhile_subset _ hch)))

theorem jones_plain {m : M4} {t : List Char} (h : m.jones = .ok t) : Plain t ∧ t ≠ [] := by
  unfold M4.jones M4.rotationTexts at h
  cases h1 : M4.rowText m.rot.m11 m.rot.m12 m.rot.m13 with
  | error e => rw [h1] at h; cases h
  | ok ra =>
  cases h2 : M4.rowText m.rot.m21 m.rot.m22 m.rot.m23 with
  | error e => rw [h1, h2] at h; cases h
  | ok rb =>
  cases h3 : M4.rowText m.rot.m31 m.rot.m32 m.rot.m33 with
  | error e => rw [h1, h2, h3] at h; cases h
  | ok rc =>
    rw [h1, h2, h3] at h
    have h' : t = (ra ++ M4.translationText m.tr.x) ++ ',' :: ((rb ++ M4.translationText m.tr.y) ++ ',' ::
        (rc ++ M4.translationText m.tr.z)) := by
      cases h
      simp [M4.joinWith, M4.translationPart, V3.toList]
    rw [h']
    exact ⟨((rowText_plain h1).append (translationText_plain _)).append (.cons (by decide)
      (((rowText_plain h2).append (translationText_plain _)).append (.cons (by decide)
        ((rowText_plain h3).append (translationText_plain _))))), by simp⟩

/-! ## The box -/

theorem words_cells (w : Nat) (cells : List (List Char)) (h : ∀ c ∈ cells, Solid c ∧ c ≠ []) (l : List Char) :
    words ((cells.flatMap fun c => ' ' :: (List.replicate (w - (c.length + 1)) ' ' ++ c)) ++ ' ' :: l)
      = cells ++ words l := by
  induction cells with
  | nil => rw [List.flatMap_nil, List.nil_append, words_sep_cons (.inl rfl), List.nil_append]
  | cons c cells ih =>
    have hc := h c (List.mem_cons_self ..)
    rw [List.flatMap_cons, List.append_assoc, List.cons_append, words_sep_cons (.inl rfl), List.append_assoc, words_blanks]
    have : ∀ rest : List Char, words (c ++ ' ' :: rest) = c :: words rest := words_piece hc.1 hc.2 (.inl rfl)
    cases cells with
    | nil => rw [List.flatMap_nil, List.nil_append, this]; rfl
    | cons d cells =>
      have e := ih (fun c hc => h c (List.mem_cons_of_mem _ hc))
      rw [List.flatMap_cons, List.append_assoc, List.cons_append] at e ⊢
      rw [this]
      rw [words_sep_cons (.inl rfl)] at e
      rw [e]; rfl

theorem words_boxRow (w : Nat) (cells : List (List Char)) (hne : cells ≠ []) (h : ∀ c ∈ cells, Solid c ∧ c ≠ []) :
    words (boxRow w cells) = ['│'] :: (cells ++ [['│']]) := by
  unfold boxRow
  rw [List.append_assoc]
  change words (' ' :: (' ' :: ('│' :: _))) = _
  rw [words_sep_cons (.inl rfl), words_sep_cons (.inl rfl)]
  have e := words_cells w cells h ['│']
  cases cells with
  | nil => exact absurd rfl hne
  | cons c cells =>
    rw [List.flatMap_cons, List.append_assoc, List.cons_append] at e ⊢
    rw [words_sep_cons (.inl rfl)] at e
    have := words_piece (a := ['│']) (by intro c hc; simp at hc; subst hc; decide) (by simp) (c := ' ') (.inl rfl)
    change words (['│'] ++ ' ' :: _) = _
    rw [this]
    rw [show ([' ', '│'] : List Char) = ' ' :: ['│'] from rfl, e]
    rw [words_solid (by intro c hc; simp at hc; subst hc; decide) (by simp)]

theorem words_lines (l : List (List Char)) (r : List Char) :
    words ((l.flatMap fun x => x ++ ['\n']) ++ r) = l.flatMap words ++ words r := by
  induction l with
  | nil => rfl
  | cons a l ih =>
    rw [List.flatMap_cons, List.append_assoc, List.append_assoc, List.singleton_append, words_sep (.inr rfl), ih,
      List.flatMap_cons, List.append_assoc]


theorem words_edge (a b : Char) (ha : a ≠ ' ' ∧ a ≠ '\n') (hb : b ≠ ' ' ∧ b ≠ '\n') (n : Nat) :
    words ([' ', ' ', a, ' '] ++ List.replicate n ' ' ++ [' ', b]) = [[a], [b]] := by
  have one : ∀ c : Char, c ≠ ' ' ∧ c ≠ '\n' → Solid [c] := fun c hc => cons_solid hc (fun d hd => by simp at hd)
  rw [List.append_assoc]
  change words (' ' :: (' ' :: ([a] ++ ' ' :: (List.replicate n ' ' ++ [' ', b])))) = _
  rw [words_sep_cons (.inl rfl), words_sep_cons (.inl rfl), words_piece (one a ha) (by simp) (.inl rfl), words_blanks,
    words_sep_cons (.inl rfl), words_solid (one b hb) (by simp)]

theorem words_boxText (rows : List (List (List Char))) (h : ∀ r ∈ rows, r ≠ [] ∧ ∀ c ∈ r, Solid c ∧ c ≠ []) :
    words (boxText 4 rows) = [['┌'], ['┐']] ++ (rows.flatMap fun r => ['│'] :: (r ++ [['│']])) ++ [['└'], ['┘']] := by
  unfold boxText
  rw [List.cons_append, words_sep_cons (.inr rfl), words_lines]
  have e0 : words ['\n'] = [] := rfl
  rw [e0, List.append_nil]
  unfold boxLines
  simp only []
  rw [List.flatMap_append, List.flatMap_append]
  have e1 : (rows.map (boxRow (widest rows + 1))).flatMap words = rows.flatMap fun r => ['│'] :: (r ++ [['│']]) := by
    rw [List.flatMap_map]
    apply List.flatMap_congr
    intro r hr
    exact words_boxRow _ r (h r hr).1 (h r hr).2
  rw [e1]
  simp only [List.flatMap_cons, List.flatMap_nil, List.append_nil]
  rw [words_edge _ _ (by decide) (by decide), words_edge _ _ (by decide) (by decide)]

theorem vectorDebug_words (v : V3) (r : List Char) : words (vectorDebug v ++ '\n' :: r) =
    [['[', '['] ++ OriginShift.intText v.x ++ [','], OriginShift.intText v.y ++ [','],
      OriginShift.intText v.z ++ [']', ']']] ++ words r := by
  have c1 : ∀ c : Char, c ≠ ' ' ∧ c ≠ '\n' → Solid [c] := fun c hc => cons_solid hc (fun d hd => by simp at hd)
  have e : vectorDebug v ++ '\n' :: r = (['[', '['] ++ OriginShift.intText v.x ++ [',']) ++ ' ' ::
      ((OriginShift.intText v.y ++ [',']) ++ ' ' :: ((OriginShift.intText v.z ++ [']', ']']) ++ '\n' :: r)) := by
    simp [vectorDebug]
  rw [e, words_piece _ (by simp) (.inl rfl), words_piece _ (by simp) (.inl rfl), words_piece _ (by simp) (.inr rfl)]
  · rfl
  · exact (intText_solid _).append (cons_solid (by decide) (c1 _ (by decide)))
  · exact (intText_solid _).append (c1 _ (by decide))
  · exact ((cons_solid (by decide) (c1 _ (by decide)) : Solid ['[', '[']).append (intText_solid _)).append (c1 _ (by decide))

/-- The cells of the displayed box. -/
def M4.cells (m : M4) : List (List (List Char)) := m.toFraction.map fun r => r.map ratText

theorem cells_solid (m : M4) : ∀ r ∈ m.cells, r ≠ [] ∧ ∀ c ∈ r, Solid c ∧ c ≠ [] := by
  intro r hr
  obtain ⟨q, hq, rfl⟩ := List.mem_map.1 hr
  refine ⟨?_, ?_⟩
  · simp only [M4.toFraction, List.mem_cons, List.not_mem_nil, or_false] at hq
    rcases hq with rfl | rfl | rfl | rfl <;> simp
  · intro c hc
    obtain ⟨x, _, rfl⟩ := List.mem_map.1 hc
    exact ⟨ratText_solid x, ratText_ne_nil x⟩

/-- The pieces of a displayed matrix. -/
theorem displayText_words {m : M4} {s : List Char} (h : m.displayText = .ok s) : ∃ t e, m.jones = .ok t ∧
    m.eigenvector = .ok e ∧ words s = [t, ['|'], ['[', '['] ++ OriginShift.intText e.x ++ [','], OriginShift.intText e.y ++ [','],
      OriginShift.intText e.z ++ [']', ']'], ['┌'], ['┐']] ++ (m.cells.flatMap fun r => ['│'] :: (r ++ [['│']]))
      ++ [['└'], ['┘']] := by
  unfold M4.displayText at h
  cases ht : m.jones with
  | error x => rw [ht] at h; cases h
  | ok t =>
  cases he : m.eigenvector with
  | error x => rw [ht, he] at h; cases h
  | ok e =>
    rw [ht, he] at h
    have h' : s = t ++ ' ' :: (['|'] ++ ' ' :: (vectorDebug e ++ '\n' :: boxText 4 m.cells)) := by
      cases h; simp [M4.cells]
    obtain ⟨hp, hne⟩ := jones_plain ht
    refine ⟨t, e, rfl, rfl, ?_⟩
    rw [h', words_piece hp.solid hne (.inl rfl), words_piece (cons_solid (by decide) (fun d hd => by simp at hd)) (by simp) (.inl rfl),
      vectorDebug_words, words_boxText _ (cells_solid m)]
    simp

theorem cells_inj {a b : M4} (h : (a.cells.flatMap fun r => ['│'] :: (r ++ [['│']])) =
    b.cells.flatMap fun r => ['│'] :: (r ++ [['│']])) : a = b := by
  simp only [M4.cells, M4.toFraction, List.map_cons, List.map_nil, List.flatMap_cons, List.flatMap_nil, List.cons_append,
    List.nil_append, List.append_nil, List.cons.injEq, and_true, true_and] at h
  obtain ⟨h1, h2, h3, h4, h5, h6, h7, h8, h9, h10, h11, h12, h13, h14, h15, h16⟩ := h
  apply (fraction_meaning a b).2.1
  simp only [M4.toFraction]
  rw [ratText_inj h1, ratText_inj h2, ratText_inj h3, ratText_inj h4, ratText_inj h5, ratText_inj h6, ratText_inj h7,
    ratText_inj h8, ratText_inj h9, ratText_inj h10, ratText_inj h11, ratText_inj h12, ratText_inj h13, ratText_inj h14,
    ratText_inj h15, ratText_inj h16]

/-- C90. The displayed text of a matrix determines it, entry by entry, translations of more than a cell included. -/
theorem display_determines {a b : M4} {s : List Char} (ha : a.displayText = .ok s) (hb : b.displayText = .ok s) : a = b := by
  obtain ⟨t, e, h1, h2, h3⟩ := displayText_words ha
  obtain ⟨t', e', h1', h2', h3'⟩ := displayText_words hb
  rw [h3] at h3'
  simp only [List.cons_append, List.nil_append, List.cons.injEq, true_and] at h3'
  exact cells_inj (List.append_cancel_right h3'.2.2.2.2)


/-! ## The displayed positions -/

theorem mapM_forall₂ {α β : Type} {f : α → Except Panic β} {l : List α} {out : List β} (h : l.mapM f = .ok out) :
    List.Forall₂ (fun a b => f a = .ok b) l out := by
  induction l generalizing out with
  | nil => cases h; exact .nil
  | cons a l ih =>
    rw [List.mapM_cons] at h
    cases ha : f a with
    | error e => rw [ha] at h; cases h
    | ok b =>
      cases hl : l.mapM f with
      | error e => rw [ha, hl] at h; cases h
      | ok bs => rw [ha, hl] at h; cases h; exact .cons ha (ih hl)

theorem mapM_same_ok {α β γ : Type} {f : α → Except Panic β} {f' : α → Except Panic γ} {l : List α}
    (h : ∀ a ∈ l, (∃ b, f a = .ok b) ↔ ∃ b, f' a = .ok b) : (∃ r, l.mapM f = .ok r) ↔ ∃ r, l.mapM f' = .ok r := by
  have key : ∀ {β : Type} (f : α → Except Panic β) (l : List α), (∃ r, l.mapM f = .ok r) ↔ ∀ a ∈ l, ∃ b, f a = .ok b := by
    intro β f l
    constructor
    · rintro ⟨r, hr⟩ a ha
      have := mapM_forall₂ hr
      clear hr
      induction this with
      | nil => cases ha
      | cons hx _ ih =>
        rcases List.mem_cons.1 ha with rfl | ha
        · exact ⟨_, hx⟩
        · exact ih ha
    · intro h
      induction l with
      | nil => exact ⟨[], rfl⟩
      | cons a l ih =>
        obtain ⟨b, hb⟩ := h a (List.mem_cons_self ..)
        obtain ⟨bs, hbs⟩ := ih fun a ha => h a (List.mem_cons_of_mem _ ha)
        exact ⟨b :: bs, by rw [List.mapM_cons, hb, hbs]; rfl⟩
  rw [key, key]
  exact forall₂_congr h

theorem M4.displayText_ok (m : M4) : (∃ s, m.displayText = .ok s) ↔ ∃ d, m.display = .ok d := by
  unfold M4.displayText M4.display
  cases m.jones with
  | error e => exact ⟨fun ⟨_, h⟩ => (by cases h), fun ⟨_, h⟩ => (by cases h)⟩
  | ok t =>
    cases m.eigenvector with
    | error e => exact ⟨fun ⟨_, h⟩ => (by cases h), fun ⟨_, h⟩ => (by cases h)⟩
    | ok e => exact ⟨fun _ => ⟨_, rfl⟩, fun _ => ⟨_, rfl⟩⟩

theorem GeneralPositions.displayText_ok (g : GeneralPositions) : (∃ s, g.displayText = .ok s) ↔ ∃ d, g.display = .ok d := by
  have bind_ok : ∀ {α β : Type} (x : Except Panic α) (f : α → β),
      (∃ b, (do let a ← x; return f a : Except Panic β) = .ok b) ↔ ∃ a, x = .ok a := by
    intro α β x f
    cases x with
    | error e => exact ⟨fun ⟨_, h⟩ => (by cases h), fun ⟨_, h⟩ => (by cases h)⟩
    | ok e => exact ⟨fun _ => ⟨_, rfl⟩, fun _ => ⟨_, rfl⟩⟩
  unfold GeneralPositions.displayText GeneralPositions.display
  rw [bind_ok]
  apply mapM_same_ok
  rintro ⟨set, tr⟩ _
  simp only []
  rw [bind_ok, bind_ok]
  exact mapM_same_ok fun m _ => m.displayText_ok

/-- What the words of a displayed matrix have in common. -/
theorem displayText_shape {m : M4} {s : List Char} (h : m.displayText = .ok s) :
    (words s).length = 33 ∧ ∀ w ∈ (words s).head?, '[' ∉ w := by
  obtain ⟨t, e, h1, _, h3⟩ := displayText_words h
  rw [h3]
  refine ⟨by simp [M4.cells, M4.toFraction], ?_⟩
  intro w hw hb
  simp at hw
  subst hw
  exact ((jones_plain h1).1 _ hb).2.2 rfl

theorem heading_words (v : V3) (r : List Char) : words (GeneralPositions.heading v ++ '\n' :: r) =
    ['[' :: (GeneralPositions.fracTextInt v.x ++ [',']), GeneralPositions.fracTextInt v.y ++ [','],
      GeneralPositions.fracTextInt v.z ++ [']'], ['+'], ['s', 'e', 't']] ++ words r := by
  have c1 : ∀ c : Char, c ≠ ' ' ∧ c ≠ '\n' → Solid [c] := fun c hc => cons_solid hc (fun d hd => by simp at hd)
  have e : GeneralPositions.heading v ++ '\n' :: r = ('[' :: (GeneralPositions.fracTextInt v.x ++ [','])) ++ ' ' ::
      ((GeneralPositions.fracTextInt v.y ++ [',']) ++ ' ' :: ((GeneralPositions.fracTextInt v.z ++ [']']) ++ ' ' ::
        (['+'] ++ ' ' :: (['s', 'e', 't'] ++ '\n' :: r)))) := by
    simp [GeneralPositions.heading]
  rw [e, words_piece _ (by simp) (.inl rfl), words_piece _ (by simp) (.inl rfl), words_piece _ (by simp) (.inl rfl),
    words_piece (c1 _ (by decide)) (by simp) (.inl rfl), words_piece _ (by simp) (.inr rfl)]
  · rfl
  · exact cons_solid (by decide) (cons_solid (by decide) (c1 _ (by decide)))
  · exact (fracTextInt_solid _).append (c1 _ (by decide))
  · exact (fracTextInt_solid _).append (c1 _ (by decide))
  · exact cons_solid (by decide) ((fracTextInt_solid _).append (c1 _ (by decide)))

/-- The words of one displayed set. -/
def setWords (v : V3) (ds : List (List Char)) : List (List Char) :=
  ['[' :: (GeneralPositions.fracTextInt v.x ++ [',']), GeneralPositions.fracTextInt v.y ++ [','],
    GeneralPositions.fracTextInt v.z ++ [']'], ['+'], ['s', 'e', 't']] ++ ds.flatMap words

theorem blockText_words (v : V3) (ds : List (List Char)) :
    words (M4.joinWith ['\n'] [GeneralPositions.heading v, M4.joinWith ['\n'] ds]) = setWords v ds := by
  change words (GeneralPositions.heading v ++ ['\n'] ++ M4.joinWith ['\n'] ds) = _
  rw [List.append_assoc, List.singleton_append, heading_words, words_join]
  rfl

/-- Displayed sets followed by something that is empty or starts with a bracket are determined by their words. -/
theorem sets_words_inj {l l' : List M4} {ds ds' : List (List Char)} (h : List.Forall₂ (fun m s => m.displayText = .ok s) l ds)
    (h' : List.Forall₂ (fun m s => m.displayText = .ok s) l' ds') {r r' : List (List Char)}
    (hr : ∀ w ∈ r.head?, '[' ∈ w) (hr' : ∀ w ∈ r'.head?, '[' ∈ w) (e : ds.flatMap words ++ r = ds'.flatMap words ++ r') :
    l = l' ∧ r = r' := by
  have nohead : ∀ {m : M4} {s : List Char} {x r : List (List Char)}, m.displayText = .ok s → (∀ w ∈ r.head?, '[' ∈ w) →
      words s ++ x ≠ r := by
    intro m s x r hm hr e
    obtain ⟨h1, h2⟩ := displayText_shape hm
    cases hw : words s with
    | nil => rw [hw] at h1; cases h1
    | cons w ws =>
      rw [hw] at e h2
      refine h2 w rfl (hr w ?_)
      rw [← e]; rfl
  induction h generalizing l' ds' with
  | nil =>
    cases h' with
    | nil => exact ⟨rfl, by simpa using e⟩
    | cons hm _ =>
      rw [List.flatMap_nil, List.nil_append, List.flatMap_cons, List.append_assoc] at e
      exact absurd e.symm (nohead hm hr)
  | cons hm _ ih =>
    cases h' with
    | nil =>
      rw [List.flatMap_nil, List.nil_append, List.flatMap_cons, List.append_assoc] at e
      exact absurd e (nohead hm hr')
    | cons hm' hl' =>
      rw [List.flatMap_cons, List.flatMap_cons, List.append_assoc, List.append_assoc] at e
      obtain ⟨e1, e2⟩ := List.append_inj e ((displayText_shape hm).1.trans (displayText_shape hm').1.symm)
      obtain ⟨t, x, j1, j2, j3⟩ := displayText_words hm
      obtain ⟨t', x', j1', j2', j3'⟩ := displayText_words hm'
      rw [j3, j3'] at e1
      simp only [List.cons_append, List.nil_append, List.cons.injEq, true_and] at e1
      obtain ⟨q1, q2⟩ := ih hl' e2
      rw [q1, cells_inj (List.append_cancel_right e1.2.2.2.2)]
      exact ⟨rfl, q2⟩

/-- C90. The displayed text of general positions determines the lattice translations and, set by set and entry by entry, the
full list of operations. -/
theorem display_positions_determined {g h : GeneralPositions} {s : List Char} (hg : g.displayText = .ok s)
    (hh : h.displayText = .ok s) : g.latticeTranslations = h.latticeTranslations ∧ g.deriveFullSets = h.deriveFullSets := by
  have words_of : ∀ {g : GeneralPositions}, g.displayText = .ok s → ∃ dss : List (List (List Char)),
      List.Forall₂ (fun (p : List M4 × V3) ds => List.Forall₂ (fun m s => m.displayText = .ok s) p.1 ds)
        (g.deriveFullSets.zip g.latticeTranslations) dss ∧
      words s = ((g.deriveFullSets.zip g.latticeTranslations).zip dss).flatMap fun q => setWords q.1.2 q.2 := by
    intro g hg
    unfold GeneralPositions.displayText at hg
    generalize hz : g.deriveFullSets.zip g.latticeTranslations = z at hg ⊢
    cases hm : (z.mapM fun (x : List M4 × V3) => (do
        let ds ← x.1.mapM M4.displayText
        return M4.joinWith ['\n'] [GeneralPositions.heading x.2, M4.joinWith ['\n'] ds] : Except Panic _)) with
    | error e =>
      exfalso
      change (do let bs ← (z.mapM fun (x : List M4 × V3) => (do
        let ds ← x.1.mapM M4.displayText
        return M4.joinWith ['\n'] [GeneralPositions.heading x.2, M4.joinWith ['\n'] ds] : Except Panic _)); _) = _ at hg
      rw [hm] at hg; cases hg
    | ok bs =>
      change (do let bs ← (z.mapM fun (x : List M4 × V3) => (do
        let ds ← x.1.mapM M4.displayText
        return M4.joinWith ['\n'] [GeneralPositions.heading x.2, M4.joinWith ['\n'] ds] : Except Panic _)); _) = _ at hg
      rw [hm] at hg
      have hs : s = M4.joinWith ['\n'] bs := by cases hg; rfl
      rw [hs, words_join]
      have hF := mapM_forall₂ hm
      clear hm hs hg hz
      induction hF with
      | nil => exact ⟨[], .nil, rfl⟩
      | @cons x b z bs hx _ ih =>
        obtain ⟨dss, h1, h2⟩ := ih
        cases hd : x.1.mapM M4.displayText with
        | error e => rw [hd] at hx; cases hx
        | ok ds =>
          rw [hd] at hx
          have hb : b = M4.joinWith ['\n'] [GeneralPositions.heading x.2, M4.joinWith ['\n'] ds] := by cases hx; rfl
          refine ⟨ds :: dss, .cons (mapM_forall₂ hd) h1, ?_⟩
          rw [List.flatMap_cons, h2, hb, blockText_words, List.zip_cons_cons, List.flatMap_cons]
  obtain ⟨dss, h1, h2⟩ := words_of hg
  obtain ⟨dss', h1', h2'⟩ := words_of hh
  rw [h2] at h2'
  have key : ∀ {z z' : List (List M4 × V3)} {dss dss' : List (List (List Char))},
      List.Forall₂ (fun (p : List M4 × V3) ds => List.Forall₂ (fun m s => m.displayText = .ok s) p.1 ds) z dss →
      List.Forall₂ (fun (p : List M4 × V3) ds => List.Forall₂ (fun m s => m.displayText = .ok s) p.1 ds) z' dss' →
      ((z.zip dss).flatMap fun q => setWords q.1.2 q.2) = ((z'.zip dss').flatMap fun q => setWords q.1.2 q.2) → z = z' := by
    have hd : ∀ (y : List ((List M4 × V3) × List (List Char))), ∀ w ∈ (y.flatMap fun q => setWords q.1.2 q.2).head?, '[' ∈ w := by
      intro y w hw
      cases y with
      | nil => simp at hw
      | cons q y => simp [setWords] at hw; subst hw; simp
    intro z z' dss dss' hF hF' e
    induction hF generalizing z' dss' with
    | nil =>
      cases hF' with
      | nil => rfl
      | cons _ _ => simp [setWords] at e
    | @cons p ds z dss hp _ ih =>
      cases hF' with
      | nil => simp [setWords] at e
      | @cons p' ds' z' dss' hp' hl' =>
        rw [List.zip_cons_cons, List.zip_cons_cons, List.flatMap_cons, List.flatMap_cons, setWords, setWords,
          List.append_assoc, List.append_assoc] at e
        simp only [List.cons_append, List.nil_append, List.cons.injEq, true_and] at e
        obtain ⟨ex, ey, ez, er⟩ := e
        obtain ⟨q1, q2⟩ := sets_words_inj hp hp' (hd _) (hd _) er
        have hv : p.2 = p'.2 := V3.ext (fracTextInt_inj (List.append_cancel_right ex)) (fracTextInt_inj (List.append_cancel_right ey))
          (fracTextInt_inj (List.append_cancel_right ez))
        rw [ih hl' q2, Prod.ext q1 hv]
  have hz := key h1 h1' h2'
  have hl : ∀ g : GeneralPositions, g.deriveFullSets.length = g.latticeTranslations.length := by
    intro g; simp [GeneralPositions.deriveFullSets]
  constructor
  · have := congrArg (List.map Prod.snd) hz
    rwa [List.map_snd_zip (hl g).ge, List.map_snd_zip (hl h).ge] at this
  · have := congrArg (List.map Prod.fst) hz
    rwa [List.map_fst_zip (hl g).le, List.map_fst_zip (hl h).le] at this

/-! ## The box is rectangular -/

theorem le_foldl_max (l : List Nat) (k : Nat) : k ≤ l.foldl max k ∧ ∀ x ∈ l, x ≤ l.foldl max k := by
  induction l generalizing k with
  | nil => exact ⟨le_rfl, fun x hx => by simp at hx⟩
  | cons a l ih =>
    rw [List.foldl_cons]
    obtain ⟨h1, h2⟩ := ih (max k a)
    refine ⟨by omega, fun x hx => ?_⟩
    rcases List.mem_cons.1 hx with rfl | hx
    · omega
    · exact h2 x hx

theorem boxRow_length {w : Nat} {cells : List (List Char)} (h : ∀ c ∈ cells, c.length + 1 ≤ w) :
    (boxRow w cells).length = cells.length * w + 5 := by
  unfold boxRow
  have : (cells.flatMap fun c => ' ' :: (List.replicate (w - (c.length + 1)) ' ' ++ c)).length = cells.length * w := by
    induction cells with
    | nil => simp
    | cons c cells ih =>
      have := h c (List.mem_cons_self ..)
      rw [List.flatMap_cons, List.length_append, ih fun c hc => h c (List.mem_cons_of_mem _ hc), List.length_cons,
        List.length_cons, List.length_append, List.length_replicate, Nat.succ_mul]
      omega
  rw [List.length_append, List.length_append, this]
  simp; omega

/-- C90. A displayed matrix is one line with the coordinates and the axis, an empty line, six lines of the same length (a
frame around the four rows) and an empty line. -/
theorem display_box_aligned {m : M4} {s : List Char} (h : m.displayText = .ok s) : ∃ (first : List Char) (box : List (List Char)),
    s = first ++ '\n' :: '\n' :: ((box.flatMap fun l => l ++ ['\n']) ++ ['\n']) ∧ '\n' ∉ first ∧ box.length = 6 ∧
    (∀ l ∈ box, '\n' ∉ l) ∧ ∀ l ∈ box, ∀ l' ∈ box, l.length = l'.length := by
  unfold M4.displayText at h
  cases ht : m.jones with
  | error x => rw [ht] at h; cases h
  | ok t =>
  cases he : m.eigenvector with
  | error x => rw [ht, he] at h; cases h
  | ok e =>
    rw [ht, he] at h
    have h' : s = (t ++ [' ', '|', ' '] ++ vectorDebug e) ++ '\n' :: boxText 4 m.cells := by
      cases h; simp [M4.cells]
    have hs : ∀ {l : List Char}, Solid l → '\n' ∉ l := fun hl hn => (hl _ hn).2 rfl
    refine ⟨t ++ [' ', '|', ' '] ++ vectorDebug e, boxLines 4 m.cells, by rw [h']; rfl, ?_, ?_, ?_, ?_⟩
    · have := hs (jones_plain ht).1.solid
      have hx := hs (intText_solid e.x)
      have hy := hs (intText_solid e.y)
      have hz := hs (intText_solid e.z)
      simp [vectorDebug, this, hx, hy, hz]
    · simp [boxLines, M4.cells, M4.toFraction]
    · intro l hl hn
      simp only [boxLines, List.mem_append, List.mem_singleton, List.mem_map] at hl
      rcases hl with (rfl | ⟨r, hr, rfl⟩) | rfl
      · simp at hn
      · simp only [boxRow, List.mem_append, List.mem_flatMap, List.mem_cons, List.not_mem_nil, or_false] at hn
        rcases hn with (hn | ⟨c, hc, hn⟩) | hn
        · revert hn; decide
        · rcases hn with hn | hn | hn
          · revert hn; decide
          · have := List.eq_of_mem_replicate hn
            revert this; decide
          · exact hs ((cells_solid m r hr).2 c hc).1 hn
        · revert hn; decide
      · simp at hn
    · have hrow : ∀ r ∈ m.cells, r.length = 4 := by
        intro r hr
        simp only [M4.cells, M4.toFraction, List.map_cons, List.map_nil, List.mem_cons, List.not_mem_nil, or_false] at hr
        rcases hr with rfl | rfl | rfl | rfl <;> rfl
      have all : ∀ l ∈ boxLines 4 m.cells, l.length = 4 * (widest m.cells + 1) + 5 := by
        intro l hl
        simp only [boxLines, List.mem_append, List.mem_singleton, List.mem_map] at hl
        rcases hl with (rfl | ⟨r, hr, rfl⟩) | rfl
        · simp; omega
        · rw [boxRow_length, hrow r hr]
          intro c hc
          have := (le_foldl_max (m.cells.flatten.map List.length) 0).2 c.length
            (List.mem_map.2 ⟨c, List.mem_flatten.2 ⟨r, hr, hc⟩, rfl⟩)
          exact Nat.succ_le_succ this
        · simp; omega
      intro l hl l' hl'
      rw [all l hl, all l' hl']

/-- The text of a matrix, and that texts of matrices and of positions exist. -/
example : (sampleA.displayText = .ok ("-y+1/4,x+5/12,z-7/12 | [[0, 0, 1]]\n\n  ┌                         ┐\n" ++
      "  │     0    -1     0   1/4 │\n  │     1     0     0  5/12 │\n  │     0     0     1 -7/12 │\n" ++
      "  │     0     0     0     1 │\n  └                         ┘\n\n").toList) ∧
    ∃ s, sampleG.displayText = .ok s := by
  refine ⟨by decide +kernel, ?_⟩
  have : (match sampleG.displayText with | .ok _ => true | _ => false) = true := by decide +kernel
  split at this
  · rename_i s hs; exact ⟨s, hs⟩
  · cases this

end Verif
