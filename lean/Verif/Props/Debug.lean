import Verif.Model.Debug
import Verif.Props.Display

/-!
# `Debug` texts and error messages identify the value (C97)
-/

namespace Verif

/-- The text does not begin with a digit. -/
def Ends (r : List Char) : Prop := ∀ c ∈ r.head?, c.isDigit = false

theorem ends_cons {c : Char} (h : c.isDigit = false) (l : List Char) : Ends (c :: l) := by
  intro d hd
  simp only [List.head?_cons, Option.mem_def, Option.some.injEq] at hd
  rw [← hd]; exact h

theorem ends_nil : Ends [] := by intro c hc; simp at hc

/-- Texts that can be read back from the front of a longer text. -/
def PF {α : Type} (f : α → List Char) : Prop :=
  ∀ a b r s, Ends r → Ends s → f a ++ r = f b ++ s → a = b ∧ r = s

theorem PF.inj {α : Type} {f : α → List Char} (h : PF f) {a b : α} (e : f a = f b) : a = b :=
  (h a b [] [] ends_nil ends_nil (by rw [e])).1

theorem pf_bool : PF Dbg.bool := by
  intro a b r s _ _ h; cases a <;> cases b <;> simp_all [Dbg.bool]

theorem pf_nfold : PF NFold.debugText := by
  intro a b r s _ _ h; cases a <;> cases b <;> simp_all [NFold.debugText]

theorem pf_nfoldSub : PF NFoldSub.debugText := by
  intro a b r s _ _ h; cases a <;> cases b <;> simp_all [NFoldSub.debugText]

theorem pf_nfoldDiag : PF NFoldDiag.debugText := by
  intro a b r s _ _ h; cases a <;> cases b <;> simp_all [NFoldDiag.debugText]

theorem pf_axis : PF RotationAxis.debugText := by
  intro a b r s _ _ h; cases a <;> cases b <;> simp_all [RotationAxis.debugText]

theorem pf_translation : PF TranslationSymbol.debugText := by
  intro a b r s _ _ h; cases a <;> cases b <;> simp_all [TranslationSymbol.debugText]

theorem pf_lattices : PF Lattices.debugText := by
  intro a b r s _ _ h
  cases a <;> cases b <;> simp_all [Lattices.debugText, LatticeSymbol.letter]

theorem pf_int : PF OriginShift.intText := by
  intro a b r s hr hs h
  have nat : ∀ (m n : Nat) (r s : List Char), Ends r → Ends s → M4.natText m ++ r = M4.natText n ++ s → m = n ∧ r = s := by
    intro m n r s hr hs h
    obtain ⟨h1, h2⟩ := split_unique (p := Char.isDigit) natText_digit natText_digit hr hs h
    exact ⟨natText_inj h1, h2⟩
  have nodash : ∀ (n : Nat) (r s : List Char), '-' :: r ≠ M4.natText n ++ s := by
    intro n r s h
    cases e : M4.natText n with
    | nil => exact natText_ne_nil n e
    | cons c l =>
      rw [e] at h
      have h2 := natText_digit (n := n) c (by rw [e]; exact List.mem_cons_self ..)
      rw [← (List.cons.inj h).1] at h2
      revert h2; decide
  unfold OriginShift.intText at h
  by_cases ha : a < 0 <;> by_cases hb : b < 0 <;> simp only [ha, hb, if_true, if_false, List.cons_append] at h
  · obtain ⟨h1, h2⟩ := nat _ _ _ _ hr hs (List.cons.inj h).2
    exact ⟨by omega, h2⟩
  · exact absurd h (nodash _ _ _)
  · exact absurd h.symm (nodash _ _ _)
  · obtain ⟨h1, h2⟩ := nat _ _ _ _ hr hs h
    exact ⟨by omega, h2⟩

/-- The first character of a text is not a closing bracket. -/
def Opens {α : Type} (f : α → List Char) : Prop := ∀ a r, (f a ++ r).head? ≠ some ']'

theorem pf_list {α : Type} {f : α → List Char} (h : PF f) (ho : Opens f) : PF (Dbg.list f) := by
  have body : ∀ (l l' : List α) (r s : List Char), Ends r → Ends s →
      M4.joinWith [',', ' '] (l.map f) ++ (']' :: r) = M4.joinWith [',', ' '] (l'.map f) ++ (']' :: s) → l = l' ∧ r = s := by
    intro l
    induction l with
    | nil =>
      intro l' r s hr hs e
      cases l' with
      | nil => exact ⟨rfl, (List.cons.inj e).2⟩
      | cons b l' =>
        exfalso
        have e' := congrArg List.head? e
        cases l' with
        | nil => exact ho b _ e'.symm
        | cons c l' =>
          simp only [List.map_cons] at e'
          rw [joinWith_cons _ _ (by simp), List.append_assoc, List.append_assoc] at e'
          exact ho b _ e'.symm
    | cons a l ih =>
      intro l' r s hr hs e
      cases l' with
      | nil =>
        exfalso
        have e' := congrArg List.head? e
        cases l with
        | nil => exact ho a _ e'
        | cons c l =>
          simp only [List.map_cons] at e'
          rw [joinWith_cons _ _ (by simp), List.append_assoc, List.append_assoc] at e'
          exact ho a _ e'
      | cons b l' =>
        cases l with
        | nil =>
          cases l' with
          | nil =>
            obtain ⟨h1, h2⟩ := h a b _ _ (ends_cons (by decide) _) (ends_cons (by decide) _) e
            exact ⟨by rw [h1], (List.cons.inj h2).2⟩
          | cons c l' =>
            simp only [List.map_cons, List.map_nil] at e
            rw [joinWith_cons _ (f b) (by simp), List.append_assoc, List.append_assoc] at e
            obtain ⟨h1, h2⟩ := h a b _ _ (ends_cons (by decide) _) (ends_cons (by decide) _) e
            simp at h2
        | cons c l =>
          cases l' with
          | nil =>
            simp only [List.map_cons, List.map_nil] at e
            rw [joinWith_cons _ (f a) (by simp), List.append_assoc, List.append_assoc] at e
            obtain ⟨h1, h2⟩ := h a b _ _ (ends_cons (by decide) _) (ends_cons (by decide) _) e
            simp at h2
          | cons d l' =>
            rw [List.map_cons, List.map_cons (l := d :: l'), joinWith_cons _ (f a) (by simp), joinWith_cons _ (f b) (by simp),
              List.append_assoc, List.append_assoc, List.append_assoc, List.append_assoc] at e
            obtain ⟨h1, h2⟩ := h a b _ _ (ends_cons (by decide) _) (ends_cons (by decide) _) e
            obtain ⟨h3, h4⟩ := ih (d :: l') r s hr hs (List.append_cancel_left (as := [',', ' ']) h2)
            exact ⟨by rw [h1, h3], h4⟩
  intro a b r s hr hs e
  unfold Dbg.list at e
  simp only [List.cons_append, List.append_assoc, List.nil_append, List.cons.injEq, true_and] at e
  exact body a b r s hr hs e

theorem pf_option {α : Type} {f : α → List Char} (h : PF f) : PF (Dbg.option f) := by
  intro a b r s hr hs e
  cases a with
  | none =>
    cases b with
    | none => exact ⟨rfl, by simpa [Dbg.option] using e⟩
    | some b => simp [Dbg.option] at e
  | some a =>
    cases b with
    | none => simp [Dbg.option] at e
    | some b =>
      simp only [Dbg.option, List.append_assoc, List.cons_append, List.nil_append, List.cons.injEq, true_and] at e
      obtain ⟨h1, h2⟩ := h a b _ _ (ends_cons (by decide) _) (ends_cons (by decide) _) e
      exact ⟨by rw [h1], (List.cons.inj h2).2⟩

theorem opens_list {α : Type} (f : α → List Char) : Opens (Dbg.list f) := by
  intro a r h; simp [Dbg.list] at h

theorem opens_translation : Opens TranslationSymbol.debugText := by
  intro a r h; cases a <;> simp [TranslationSymbol.debugText] at h

theorem opens_int : Opens OriginShift.intText := by
  intro a r h
  have nat : ∀ n, (M4.natText n ++ r).head? ≠ some ']' := by
    intro n h
    cases e : M4.natText n with
    | nil => exact natText_ne_nil n e
    | cons c l =>
      rw [e] at h
      have h2 := natText_digit (n := n) c (by rw [e]; exact List.mem_cons_self ..)
      simp only [List.cons_append, List.head?_cons, Option.some.injEq] at h
      rw [h] at h2
      revert h2; decide
  unfold OriginShift.intText at h
  split at h
  · simp at h
  · exact nat _ h

theorem debug_step {k x y : List Char} (h : [',', ' '] ++ (k ++ ([':', ' '] ++ x)) = [',', ' '] ++ (k ++ ([':', ' '] ++ y))) : x = y :=
  List.append_cancel_left (as := [':', ' ']) (List.append_cancel_left (as := k) (List.append_cancel_left (as := [',', ' ']) h))

theorem ends_sep (l : List Char) : Ends ([',', ' '] ++ l) := ends_cons (by decide) _

theorem ends_close (l : List Char) : Ends ([' ', '}'] ++ l) := ends_cons (by decide) _

theorem pf_matrixSymbol : PF MatrixSymbol.debugText := by
  rintro ⟨a1, a2, a3, a4, a5, a6⟩ ⟨b1, b2, b3, b4, b5, b6⟩ r s hr hs e
  simp only [MatrixSymbol.debugText, Dbg.struct, Dbg.field, M4.joinWith, List.append_assoc] at e
  have e := List.append_cancel_left (List.append_cancel_left (List.append_cancel_left (List.append_cancel_left e)))
  obtain ⟨rfl, f1⟩ := pf_bool _ _ _ _ (ends_sep _) (ends_sep _) e
  have e1 := debug_step f1
  obtain ⟨rfl, f2⟩ := pf_nfold _ _ _ _ (ends_sep _) (ends_sep _) e1
  have e2 := debug_step f2
  obtain ⟨rfl, f3⟩ := pf_nfoldSub _ _ _ _ (ends_sep _) (ends_sep _) e2
  have e3 := debug_step f3
  obtain ⟨rfl, f4⟩ := pf_nfoldDiag _ _ _ _ (ends_sep _) (ends_sep _) e3
  have e4 := debug_step f4
  obtain ⟨rfl, f5⟩ := pf_axis _ _ _ _ (ends_sep _) (ends_sep _) e4
  have e5 := debug_step f5
  obtain ⟨rfl, f6⟩ := pf_option (pf_list pf_translation opens_translation) _ _ _ _ (ends_close _)
    (ends_close _) e5
  exact ⟨rfl, List.append_cancel_left (as := [' ', '}']) f6⟩

theorem pf_latticeSymbol : PF LatticeSymbol.debugText := by
  rintro ⟨a1, a2⟩ ⟨b1, b2⟩ r s hr hs e
  simp only [LatticeSymbol.debugText, Dbg.struct, Dbg.field, M4.joinWith, List.append_assoc] at e
  have e := List.append_cancel_left (List.append_cancel_left (List.append_cancel_left (List.append_cancel_left e)))
  obtain ⟨rfl, f1⟩ := pf_bool _ _ _ _ (ends_sep _) (ends_sep _) e
  have e1 := debug_step f1
  obtain ⟨rfl, f2⟩ := pf_lattices _ _ _ _ (ends_close _) (ends_close _) e1
  exact ⟨rfl, List.append_cancel_left (as := [' ', '}']) f2⟩

theorem pf_originShift : PF OriginShift.debugText := by
  rintro ⟨a1, a2, a3⟩ ⟨b1, b2, b3⟩ r s hr hs e
  simp only [OriginShift.debugText, Dbg.struct, Dbg.field, M4.joinWith, List.append_assoc] at e
  have e := List.append_cancel_left (List.append_cancel_left (List.append_cancel_left (List.append_cancel_left e)))
  obtain ⟨rfl, f1⟩ := pf_int _ _ _ _ (ends_sep _) (ends_sep _) e
  have e1 := debug_step f1
  obtain ⟨rfl, f2⟩ := pf_int _ _ _ _ (ends_sep _) (ends_sep _) e1
  have e2 := debug_step f2
  obtain ⟨rfl, f3⟩ := pf_int _ _ _ _ (ends_close _) (ends_close _) e2
  exact ⟨rfl, List.append_cancel_left (as := [' ', '}']) f3⟩

theorem opens_matrixSymbol : Opens MatrixSymbol.debugText := by
  intro a r h
  simp [MatrixSymbol.debugText, Dbg.struct] at h

theorem pf_notation : PF HallSymbolNotation.debugText := by
  rintro ⟨a1, a2, a3⟩ ⟨b1, b2, b3⟩ r s hr hs e
  simp only [HallSymbolNotation.debugText, Dbg.struct, Dbg.field, M4.joinWith, List.append_assoc] at e
  have e := List.append_cancel_left (List.append_cancel_left (List.append_cancel_left (List.append_cancel_left e)))
  obtain ⟨rfl, f1⟩ := pf_latticeSymbol _ _ _ _ (ends_sep _) (ends_sep _) e
  have e1 := debug_step f1
  obtain ⟨rfl, f2⟩ := pf_list pf_matrixSymbol opens_matrixSymbol _ _ _ _ (ends_sep _) (ends_sep _) e1
  have e2 := debug_step f2
  obtain ⟨rfl, f3⟩ := pf_originShift _ _ _ _ (ends_close _) (ends_close _) e2
  exact ⟨rfl, List.append_cancel_left (as := [' ', '}']) f3⟩

theorem pf_m4 : PF M4.debugText := by
  rintro a b r s hr hs e
  simp only [M4.debugText, Dbg.wrap1, List.append_assoc, List.cons_append, List.nil_append] at e
  have e := (List.cons.inj (List.append_cancel_left e)).2
  obtain ⟨h1, h2⟩ := pf_list (pf_list pf_int opens_int) (opens_list _) _ _ _ _ (ends_cons (by decide) _)
    (ends_cons (by decide) _) e
  refine ⟨?_, (List.cons.inj h2).2⟩
  obtain ⟨⟨a11, a12, a13, a21, a22, a23, a31, a32, a33⟩, ⟨ax, ay, az⟩, ⟨au, av, aw'⟩, aw⟩ := a
  obtain ⟨⟨b11, b12, b13, b21, b22, b23, b31, b32, b33⟩, ⟨bx, by', bz⟩, ⟨bu, bv, bw'⟩, bw⟩ := b
  simp only [List.cons.injEq, and_true] at h1
  simp only [M4.mk.injEq, M3.mk.injEq, V3.mk.injEq]
  tauto

theorem pf_vector : PF vectorDebug := by
  have e : vectorDebug = fun v => Dbg.list (Dbg.list OriginShift.intText) [[v.x, v.y, v.z]] := by
    funext v; simp [vectorDebug, Dbg.list, M4.joinWith]
  rw [e]
  rintro ⟨a1, a2, a3⟩ ⟨b1, b2, b3⟩ r s hr hs h
  obtain ⟨h1, h2⟩ := pf_list (pf_list pf_int opens_int) (opens_list _) _ _ _ _ hr hs h
  simp only [List.cons.injEq, and_true] at h1
  obtain ⟨rfl, rfl, rfl⟩ := h1
  exact ⟨rfl, h2⟩

theorem opens_vector : Opens vectorDebug := by
  intro a r h; simp [vectorDebug] at h

theorem opens_m4 : Opens M4.debugText := by
  intro a r h; simp [M4.debugText, Dbg.wrap1] at h

theorem pf_positions : PF GeneralPositions.debugText := by
  rintro ⟨a1, a2⟩ ⟨b1, b2⟩ r s hr hs e
  simp only [GeneralPositions.debugText, Dbg.struct, Dbg.field, M4.joinWith, List.append_assoc] at e
  have e := List.append_cancel_left (List.append_cancel_left (List.append_cancel_left (List.append_cancel_left e)))
  obtain ⟨rfl, f1⟩ := pf_list pf_vector opens_vector _ _ _ _ (ends_sep _) (ends_sep _) e
  have e1 := debug_step f1
  obtain ⟨rfl, f2⟩ := pf_list pf_m4 opens_m4 _ _ _ _ (ends_close _) (ends_close _) e1
  exact ⟨rfl, List.append_cancel_left (as := [' ', '}']) f2⟩

/-- C97. The `Debug` texts of notations, positions and operations determine the value, field by field and entry by entry. -/
theorem debug_determines :
    (∀ a b : HallSymbolNotation, a.debugText = b.debugText ↔ a = b) ∧
    (∀ a b : MatrixSymbol, a.debugText = b.debugText ↔ a = b) ∧
    (∀ a b : GeneralPositions, a.debugText = b.debugText ↔ a = b) ∧
    (∀ a b : M4, a.debugText = b.debugText ↔ a = b) :=
  ⟨fun _ _ => ⟨pf_notation.inj, fun h => by rw [h]⟩, fun _ _ => ⟨pf_matrixSymbol.inj, fun h => by rw [h]⟩,
    fun _ _ => ⟨pf_positions.inj, fun h => by rw [h]⟩, fun _ _ => ⟨pf_m4.inj, fun h => by rw [h]⟩⟩

/-- The layout, on one symbol; the displayed text of the same symbol does not tell the axis z from no axis. -/
example : (⟨false, .N2, .N1, .None, .Z, some [.A, .C]⟩ : MatrixSymbol).debugText =
    ("MatrixSymbol { minus_sign: false, nfold_body: N2, nfold_sub: N1, nfold_diag: None, rotation_axis: Z, " ++
      "translation_symbols: Some([A, C]) }").toList ∧
    (⟨false, .N2, .N1, .None, .Z, some [.A, .C]⟩ : MatrixSymbol).text =
      (⟨false, .N2, .N1, .None, .Omitted, some [.A, .C]⟩ : MatrixSymbol).text := by decide +kernel

/-- C97. `seitz_matrix` and `build` fail with the error that says why: the symbol itself, or that no fold was set; and the
message determines which of the two, and the symbol. -/
theorem symbol_errors :
    (∀ (s : MatrixSymbol) e, s.seitzResult = .error e ↔ s.seitzMatrix = none ∧ e = .Invalid s) ∧
    (∀ (s : MatrixSymbol) m, s.seitzResult = .ok m ↔ s.seitzMatrix = some m) ∧
    (∀ (b : MatrixSymbolBuilder) e, b.buildResult = .error e ↔ b.nfoldBody = none ∧ e = .IncompleteFields) ∧
    (∀ e e' : MatrixSymbolError, e.text = e'.text ↔ e = e') := by
  have res : ∀ s : MatrixSymbol, s.seitzResult = (match s.seitzMatrix with
      | some m => .ok m
      | none => .error (.Invalid s)) := by
    intro s
    unfold MatrixSymbol.seitzResult MatrixSymbol.seitzMatrix MatrixSymbol.rotationMatrixResult MatrixSymbol.setTransformResult
    cases rotationMatrix s.nfoldBody s.nfoldDiag s.rotationAxis with
    | none => rfl
    | some r =>
      change (do let m ← (match setTransform s r with
        | some m => .ok m
        | none => .error (.Invalid s) : Except MatrixSymbolError M4)
                 _) = _
      cases h : setTransform s r with
      | none => simp only [h]; rfl
      | some m => simp only [h]; cases s.minusSign <;> rfl
  have differ : ∀ s : MatrixSymbol, (MatrixSymbolError.Invalid s).text ≠ MatrixSymbolError.IncompleteFields.text := by
    intro s h
    have e1 : "Invalid symbol ".toList = 'I' :: 'n' :: 'v' :: "alid symbol ".toList := by decide +kernel
    have e2 : "Incomplete fields of `MatrixSymbol`".toList = 'I' :: 'n' :: 'c' :: "omplete fields of `MatrixSymbol`".toList := by
      decide +kernel
    unfold MatrixSymbolError.text at h
    simp only [] at h
    rw [e1, e2] at h
    have := (List.cons.inj (List.cons.inj (List.cons.inj h).2).2).1
    revert this; decide
  refine ⟨fun s e => ?_, fun s m => ?_, fun b e => ?_, fun e e' => ⟨fun h => ?_, fun h => by rw [h]⟩⟩
  · rw [res]
    cases s.seitzMatrix with
    | none => simp [eq_comm]
    | some m => simp
  · rw [res]
    cases s.seitzMatrix with
    | none => simp
    | some m => simp
  · unfold MatrixSymbolBuilder.buildResult MatrixSymbolBuilder.build
    cases b.nfoldBody with
    | none => simp [eq_comm]
    | some m => simp
  · cases e with
    | Invalid s =>
      cases e' with
      | Invalid s' => rw [pf_matrixSymbol.inj (List.append_cancel_left h)]
      | IncompleteFields =>
        exact (differ _ h).elim
    | IncompleteFields =>
      cases e' with
      | Invalid s' =>
        exact (differ _ h.symm).elim
      | IncompleteFields => rfl

/-- A rejected symbol, and its message. -/
example : (⟨false, .N4, .None, .SingleQuote, .Z, none⟩ : MatrixSymbol).seitzMatrix = none ∧
    (MatrixSymbolError.Invalid ⟨false, .N4, .None, .SingleQuote, .Z, none⟩).text =
      ("Invalid symbol MatrixSymbol { minus_sign: false, nfold_body: N4, nfold_sub: None, nfold_diag: SingleQuote, " ++
        "rotation_axis: Z, translation_symbols: None }").toList := by decide +kernel

theorem intText_ne_nil (v : Int) : OriginShift.intText v ≠ [] := by
  unfold OriginShift.intText
  split
  · simp
  · exact natText_ne_nil _

theorem matrixText_inj {a b : M4} {t : List Char} (h : a.matrixText ++ t = b.matrixText ++ t) : a = b := by
  have h := List.append_cancel_right h
  have solid : ∀ m : M4, ∀ r ∈ ([[m.rot.m11, m.rot.m12, m.rot.m13, m.tr.x], [m.rot.m21, m.rot.m22, m.rot.m23, m.tr.y],
      [m.rot.m31, m.rot.m32, m.rot.m33, m.tr.z], [m.bot.x, m.bot.y, m.bot.z, m.w]].map fun r => r.map OriginShift.intText),
      r ≠ [] ∧ ∀ c ∈ r, Solid c ∧ c ≠ [] := by
    intro m r hr
    obtain ⟨q, hq, rfl⟩ := List.mem_map.1 hr
    refine ⟨?_, ?_⟩
    · simp only [List.mem_cons, List.not_mem_nil, or_false] at hq
      rcases hq with rfl | rfl | rfl | rfl <;> simp
    · intro c hc
      obtain ⟨x, _, rfl⟩ := List.mem_map.1 hc
      exact ⟨intText_solid x, intText_ne_nil x⟩
  have e := congrArg words h
  unfold M4.matrixText at e
  rw [words_boxText _ (solid a), words_boxText _ (solid b)] at e
  have e := List.append_cancel_left (List.append_cancel_right e)
  simp only [List.map_cons, List.map_nil, List.flatMap_cons, List.flatMap_nil, List.cons_append,
    List.nil_append, List.append_nil, List.cons.injEq, and_true, true_and] at e
  obtain ⟨h1, h2, h3, h4, h5, h6, h7, h8, h9, h10, h11, h12, h13, h14, h15, h16⟩ := e
  have i := fun {a b : Int} (h : OriginShift.intText a = OriginShift.intText b) => pf_int.inj h
  obtain ⟨⟨a11, a12, a13, a21, a22, a23, a31, a32, a33⟩, ⟨ax, ay, az⟩, ⟨au, av, aw'⟩, aw⟩ := a
  obtain ⟨⟨b11, b12, b13, b21, b22, b23, b31, b32, b33⟩, ⟨bx, by', bz⟩, ⟨bu, bv, bw'⟩, bw⟩ := b
  simp only [M4.mk.injEq, M3.mk.injEq, V3.mk.injEq]
  exact ⟨⟨i h1, i h2, i h3, i h5, i h6, i h7, i h9, i h10, i h11⟩, ⟨i h4, i h8, i h12⟩, ⟨i h13, i h14, i h15⟩, i h16⟩

/-- C97. `rotation_type` fails with the matrix it was called on, and the message determines that matrix. -/
theorem rotation_errors :
    (∀ (m : M4) e, m.rotationTypeResult = .error e ↔ m.rotationTypeF64 = none ∧ e = .NotRotationMatrix m) ∧
    (∀ (m : M4) t, m.rotationTypeResult = .ok t ↔ m.rotationTypeF64 = some t) ∧
    (∀ e e' : SeitzMatrixError, e.text = e'.text ↔ e = e') := by
  refine ⟨fun m e => ?_, fun m t => ?_, fun e e' => ⟨fun h => ?_, fun h => by rw [h]⟩⟩
  · unfold M4.rotationTypeResult
    cases m.rotationTypeF64 with
    | none => simp [eq_comm]
    | some m => simp
  · unfold M4.rotationTypeResult
    cases m.rotationTypeF64 with
    | none => simp
    | some m => simp
  · obtain ⟨a⟩ := e
    obtain ⟨b⟩ := e'
    rw [matrixText_inj h]

/-- A message. -/
example : (SeitzMatrixError.NotRotationMatrix ⟨⟨2, 0, 0, 0, 1, 0, 0, 0, 1⟩, ⟨0, 0, -12⟩, V3.zero, 1⟩).text =
    ("\n  ┌                 ┐\n  │   2   0   0   0 │\n  │   0   1   0   0 │\n  │   0   0   1 -12 │\n  │   0   0   0   1 │\n" ++
      "  └                 ┘\n\n is not a rotation matrix!").toList ∧
    (⟨⟨2, 0, 0, 0, 1, 0, 0, 0, 1⟩, ⟨0, 0, -12⟩, V3.zero, 1⟩ : M4).rotationTypeF64 = none := by decide +kernel

end Verif
