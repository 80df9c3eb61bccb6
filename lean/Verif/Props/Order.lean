import Mathlib.Order.Compare
import Verif.Spec.Order
import Verif.Props.Canonical

/-! # The comparisons of notations and positions (C77) -/

namespace Verif

/-! ## Tools -/

/-- A comparison that is lawful up to a key (a projection of the value). -/
structure KeyCmp {α β : Type} (c : α → α → Ordering) (k : α → β) : Prop where
  equal : ∀ a b, c a b = .eq ↔ k a = k b
  swap : ∀ a b, c b a = (c a b).swap
  trans : ∀ a b d, c a b = .lt → c b d = .lt → c a d = .lt
  left : ∀ a b d, k a = k b → c a d = c b d

theorem LawfulCmp.key {α β : Type} {c : β → β → Ordering} (h : LawfulCmp c) (f : α → β) :
    KeyCmp (fun a b => c (f a) (f b)) f :=
  ⟨fun _ _ => h.equal _ _, fun _ _ => h.swap _ _, fun _ _ _ => h.trans _ _ _, fun a b d e => by simp only [e]⟩

theorem KeyCmp.andThen {α β γ : Type} {c₁ c₂ : α → α → Ordering} {k₁ : α → β} {k₂ : α → γ} (h₁ : KeyCmp c₁ k₁)
    (h₂ : KeyCmp c₂ k₂) :
    KeyCmp (fun a b => match c₁ a b with | .eq => c₂ a b | o => o) (fun a => (k₁ a, k₂ a)) := by
  have right : ∀ a b d, k₁ b = k₁ d → c₁ a b = c₁ a d := by
    intro a b d e
    rw [h₁.swap b a, h₁.swap d a, h₁.left b d a e]
  refine ⟨fun a b => ?_, fun a b => ?_, fun a b d => ?_, fun a b d => ?_⟩
  · have := h₁.equal a b
    have := h₂.equal a b
    cases e : c₁ a b <;> simp_all
  · have e1 := h₁.swap a b
    have e2 := h₂.swap a b
    cases e : c₁ a b <;> simp_all
  · intro e1 e2
    cases x : c₁ a b with
    | lt =>
      cases y : c₁ b d with
      | lt => simp only [h₁.trans a b d x y]
      | eq => rw [← right a b d ((h₁.equal b d).1 y), x]
      | gt => rw [y] at e2; cases e2
    | eq =>
      rw [x] at e1
      rw [h₁.left a b d ((h₁.equal a b).1 x)]
      cases y : c₁ b d with
      | lt => rfl
      | eq => rw [y] at e2; exact h₂.trans a b d e1 e2
      | gt => rw [y] at e2; cases e2
    | gt => rw [x] at e1; cases e1
  · intro e
    simp only [Prod.mk.injEq] at e
    simp only [h₁.left a b d e.1, h₂.left a b d e.2]

theorem KeyCmp.lawful {α β : Type} {c : α → α → Ordering} {k : α → β} (h : KeyCmp c k)
    (inj : ∀ a b, k a = k b → a = b) : LawfulCmp c :=
  ⟨fun a b => (h.equal a b).trans ⟨inj a b, fun e => by rw [e]⟩, h.swap, h.trans⟩

theorem LawfulCmp.linear {α : Type} [LinearOrder α] : LawfulCmp (α := α) compare := by
  refine ⟨fun _ _ => compare_eq_iff_eq, fun a b => ?_, fun a b d h1 h2 => ?_⟩
  · rcases lt_trichotomy a b with h | h | h
    · rw [compare_lt_iff_lt.2 h, compare_gt_iff_gt.2 h]; rfl
    · rw [compare_eq_iff_eq.2 h, compare_eq_iff_eq.2 h.symm]; rfl
    · rw [compare_gt_iff_gt.2 h, compare_lt_iff_lt.2 h]; rfl
  · exact compare_lt_iff_lt.2 (lt_trans (compare_lt_iff_lt.1 h1) (compare_lt_iff_lt.1 h2))

theorem boolCmp_lawful : LawfulCmp boolCmp := by
  refine ⟨?_, ?_, ?_⟩ <;> decide

theorem optionCmp_lawful {α : Type} {c : α → α → Ordering} (h : LawfulCmp c) : LawfulCmp (optionCmp c) := by
  refine ⟨fun a b => ?_, fun a b => ?_, fun a b d => ?_⟩
  · cases a <;> cases b <;> simp [optionCmp, h.equal]
  · cases a <;> cases b <;> simp [optionCmp]
    exact h.swap _ _
  · cases a <;> cases b <;> cases d <;> simp [optionCmp]
    exact h.trans _ _ _

theorem vecCmp_lawful {α : Type} {c : α → α → Ordering} (h : LawfulCmp c) : LawfulCmp (vecCmp c) := by
  refine ⟨fun a => ?_, fun a => ?_, fun a => ?_⟩
  · induction a with
    | nil => intro b; cases b <;> simp [vecCmp]
    | cons x a ih =>
      intro b
      cases b with
      | nil => simp [vecCmp]
      | cons y b =>
        have e := h.equal x y
        simp only [vecCmp, List.cons.injEq]
        cases hx : c x y <;> simp_all
  · induction a with
    | nil => intro b; cases b <;> rfl
    | cons x a ih =>
      intro b
      cases b with
      | nil => rfl
      | cons y b =>
        have e := h.swap x y
        simp only [vecCmp]
        cases hx : c x y <;> simp_all
  · induction a with
    | nil =>
      intro b d
      cases b <;> cases d <;> simp [vecCmp]
    | cons x a ih =>
      intro b d
      cases b with
      | nil => simp [vecCmp]
      | cons y b =>
        cases d with
        | nil => simp [vecCmp]
        | cons z d =>
          simp only [vecCmp]
          intro h1 h2
          cases hxy : c x y with
          | lt =>
            cases hyz : c y z with
            | lt => rw [h.trans x y z hxy hyz]
            | eq => rw [← (h.equal y z).1 hyz, hxy]
            | gt => rw [hyz] at h2; cases h2
          | eq =>
            rw [hxy] at h1
            rw [(h.equal x y).1 hxy]
            cases hyz : c y z with
            | lt => rfl
            | eq => rw [hyz] at h2; exact ih b d h1 h2
            | gt => rw [hyz] at h2; cases h2
          | gt => rw [hxy] at h1; cases h1

theorem vecPartialCmp_some {α : Type} (c : α → α → Ordering) (a b : List α) :
    vecPartialCmp (fun x y => some (c x y)) a b = some (vecCmp c a b) := by
  induction a generalizing b with
  | nil => cases b <;> rfl
  | cons x a ih =>
    cases b with
    | nil => rfl
    | cons y b =>
      simp only [vecPartialCmp, vecCmp]
      cases c x y <;> simp [ih]

theorem vecPartialCmp_eq {α : Type} {c : α → α → Option Ordering} (h : ∀ a b, c a b = some .eq ↔ a = b) (a b : List α) :
    vecPartialCmp c a b = some .eq ↔ a = b := by
  induction a generalizing b with
  | nil => cases b <;> simp [vecPartialCmp]
  | cons x a ih =>
    cases b with
    | nil => simp [vecPartialCmp]
    | cons y b =>
      simp only [vecPartialCmp, List.cons.injEq]
      split
      · rename_i e; rw [ih]; exact ⟨fun e' => ⟨(h x y).1 e, e'⟩, fun e' => e'.2⟩
      · rename_i e; exact ⟨fun e' => absurd e' (by simpa using e), fun e' => absurd ((h x y).2 e'.1) (by simpa using e)⟩

theorem V3.partialCmp_eq_iff (a b : V3) : V3.partialCmp a b = some .eq ↔ a = b := by
  simp only [V3.partialCmp, M4.partialCmpLoop_eq, compare_eq_iff_eq, List.mem_cons, forall_eq_or_imp, List.not_mem_nil,
    false_imp_iff, implies_true, and_true]
  exact ⟨fun h => V3.ext h.1 h.2.1 h.2.2, fun h => by rw [h]; exact ⟨rfl, rfl, rfl⟩⟩

/-! ## The enums -/

theorem enumCmp {α : Type} (p : α → Nat) (inj : ∀ a b, p a = p b → a = b) :
    LawfulCmp (fun a b => compare (p a) (p b)) :=
  ((LawfulCmp.linear (α := Nat)).key p).lawful inj

theorem nfoldCmp_lawful : LawfulCmp NFold.cmp := enumCmp _ (by intro a b; cases a <;> cases b <;> decide)
theorem nfoldSubCmp_lawful : LawfulCmp NFoldSub.cmp := enumCmp _ (by intro a b; cases a <;> cases b <;> decide)
theorem nfoldDiagCmp_lawful : LawfulCmp NFoldDiag.cmp := enumCmp _ (by intro a b; cases a <;> cases b <;> decide)
theorem rotationAxisCmp_lawful : LawfulCmp RotationAxis.cmp := enumCmp _ (by intro a b; cases a <;> cases b <;> decide)
theorem translationCmp_lawful : LawfulCmp TranslationSymbol.cmp :=
  enumCmp _ (by intro a b; cases a <;> cases b <;> decide)
theorem latticesCmp_lawful : LawfulCmp Lattices.cmp := enumCmp _ (by intro a b; cases a <;> cases b <;> decide)

/-- C77. The six enums of the notation are lawfully ordered, in the order in which their variants are written below. -/
theorem enum_orders :
    (LawfulCmp NFold.cmp ∧ LawfulCmp NFoldSub.cmp ∧ LawfulCmp NFoldDiag.cmp ∧ LawfulCmp RotationAxis.cmp ∧
      LawfulCmp TranslationSymbol.cmp ∧ LawfulCmp Lattices.cmp) ∧
    [NFold.Invalid, .N1, .N2, .N3, .N4, .N6].Pairwise (fun a b => NFold.cmp a b = .lt) ∧
    [NFoldSub.None, .N1, .N2, .N3, .N4, .N5].Pairwise (fun a b => NFoldSub.cmp a b = .lt) ∧
    [NFoldDiag.None, .SingleQuote, .DoubleQuote, .Asterisk].Pairwise (fun a b => NFoldDiag.cmp a b = .lt) ∧
    [RotationAxis.Omitted, .X, .Y, .Z].Pairwise (fun a b => RotationAxis.cmp a b = .lt) ∧
    [TranslationSymbol.Invalid, .A, .B, .C, .N, .U, .V, .W, .D].Pairwise (fun a b => TranslationSymbol.cmp a b = .lt) ∧
    [Lattices.P, .A, .B, .C, .I, .R, .F].Pairwise (fun a b => Lattices.cmp a b = .lt) :=
  ⟨⟨nfoldCmp_lawful, nfoldSubCmp_lawful, nfoldDiagCmp_lawful, rotationAxisCmp_lawful, translationCmp_lawful,
    latticesCmp_lawful⟩, by decide, by decide, by decide, by decide, by decide, by decide⟩

/-! ## The parts of a notation -/

/-- C77. Lattice symbols: those without a minus sign come first, then by letter. -/
theorem lattice_symbol_order :
    LawfulCmp LatticeSymbol.cmp ∧
    ∀ a b : LatticeSymbol, a.cmp b = .lt ↔
      (a.minusSign = false ∧ b.minusSign = true) ∨ (a.minusSign = b.minusSign ∧ a.char.cmp b.char = .lt) := by
  constructor
  · refine ((boolCmp_lawful.key LatticeSymbol.minusSign).andThen (latticesCmp_lawful.key LatticeSymbol.char)).lawful ?_
    rintro ⟨a1, a2⟩ ⟨b1, b2⟩ h
    simpa using h
  · rintro ⟨a1, a2⟩ ⟨b1, b2⟩
    cases a1 <;> cases b1 <;> simp [LatticeSymbol.cmp, boolCmp]

/-- C77. Origin shifts: by the three components, first component first. -/
theorem origin_shift_order :
    LawfulCmp OriginShift.cmp ∧
    ∀ a b : OriginShift, a.cmp b = .lt ↔
      a.va < b.va ∨ (a.va = b.va ∧ (a.vb < b.vb ∨ (a.vb = b.vb ∧ a.vc < b.vc))) := by
  constructor
  · refine ((LawfulCmp.linear.key OriginShift.va).andThen
      ((LawfulCmp.linear.key OriginShift.vb).andThen (LawfulCmp.linear.key OriginShift.vc))).lawful ?_
    rintro ⟨a1, a2, a3⟩ ⟨b1, b2, b3⟩ h
    simpa using h
  · rintro ⟨a1, a2, a3⟩ ⟨b1, b2, b3⟩
    simp only [OriginShift.cmp]
    rcases lt_trichotomy a1 b1 with h | h | h
    · rw [compare_lt_iff_lt.2 h]; simp [h]
    · rw [compare_eq_iff_eq.2 h]
      rcases lt_trichotomy a2 b2 with h' | h' | h'
      · simp only [compare_lt_iff_lt.2 h']; simp [h, h']
      · simp only [compare_eq_iff_eq.2 h', compare_lt_iff_lt]; simp [h, h']
      · simp only [compare_gt_iff_gt.2 h']; simp [h, h'.ne', not_lt.2 h'.le]
    · rw [compare_gt_iff_gt.2 h]; simp [h.ne', not_lt.2 h.le]

theorem matrixCmp_lawful : LawfulCmp MatrixSymbol.cmp := by
  refine ((boolCmp_lawful.key MatrixSymbol.minusSign).andThen ((nfoldCmp_lawful.key MatrixSymbol.nfoldBody).andThen
    ((nfoldSubCmp_lawful.key MatrixSymbol.nfoldSub).andThen ((nfoldDiagCmp_lawful.key MatrixSymbol.nfoldDiag).andThen
    ((rotationAxisCmp_lawful.key MatrixSymbol.rotationAxis).andThen
    ((optionCmp_lawful (vecCmp_lawful translationCmp_lawful)).key MatrixSymbol.translationSymbols)))))).lawful ?_
  rintro ⟨a1, a2, a3, a4, a5, a6⟩ ⟨b1, b2, b3, b4, b5, b6⟩ h
  simpa using h

theorem vecCmp_lt_iff (a b : List TranslationSymbol) :
    vecCmp TranslationSymbol.cmp a b = .lt ↔
      a.map TranslationSymbol.position < b.map TranslationSymbol.position := by
  induction a generalizing b with
  | nil => cases b <;> simp [vecCmp]
  | cons x a ih =>
    cases b with
    | nil => simp [vecCmp]
    | cons y b =>
      simp only [vecCmp, List.map_cons, List.cons_lt_cons_iff, TranslationSymbol.cmp]
      rcases lt_trichotomy x.position y.position with h | h | h
      · rw [compare_lt_iff_lt.2 h]; simp [h]
      · rw [compare_eq_iff_eq.2 h]; simp [h, ih]
      · rw [compare_gt_iff_gt.2 h]; simp [h.ne', not_lt.2 h.le]

theorem lex_step (x y : Nat) (o : Ordering) (l r : List Nat) (h : o = .lt ↔ l < r) :
    (match compare x y with | .eq => o | z => z) = .lt ↔ x :: l < y :: r := by
  rw [List.cons_lt_cons_iff]
  rcases lt_trichotomy x y with e | e | e
  · rw [compare_lt_iff_lt.2 e]; simp [e]
  · rw [compare_eq_iff_eq.2 e]; simp [e, h]
  · rw [compare_gt_iff_gt.2 e]; simp [e.ne', not_lt.2 e.le]

/-- C77. Matrix symbols: lexicographically by sign, fold, subscript, diagonal mark, axis, translation letters. -/
theorem matrix_symbol_order :
    LawfulCmp MatrixSymbol.cmp ∧ ∀ a b : MatrixSymbol, a.cmp b = .lt ↔ a.word < b.word := by
  refine ⟨matrixCmp_lawful, ?_⟩
  rintro ⟨a1, a2, a3, a4, a5, a6⟩ ⟨b1, b2, b3, b4, b5, b6⟩
  have hb : boolCmp a1 b1 = compare (if a1 then 1 else 0 : Nat) (if b1 then 1 else 0 : Nat) := by
    cases a1 <;> cases b1 <;> decide
  simp only [MatrixSymbol.cmp, MatrixSymbol.word, hb, NFold.cmp, NFoldSub.cmp, NFoldDiag.cmp, RotationAxis.cmp,
    List.cons_append, List.nil_append]
  refine lex_step _ _ _ _ _ (lex_step _ _ _ _ _ (lex_step _ _ _ _ _ (lex_step _ _ _ _ _ (lex_step _ _ _ _ _ ?_))))
  cases a6 with
  | none => cases b6 <;> simp [optionCmp]
  | some l =>
    cases b6 with
    | none => simp [optionCmp]
    | some r => simp [optionCmp, vecCmp_lt_iff]

/-- C77. Notations: `partial_cmp` always answers, and what it answers is a lawful order; `Equal` means the same notation. -/
theorem notation_order :
    ∃ c : HallSymbolNotation → HallSymbolNotation → Ordering,
      LawfulCmp c ∧ (∀ a b : HallSymbolNotation, a.partialCmp b = some (c a b)) ∧
      ∀ a b : HallSymbolNotation, c a b = .lt ↔
        a.latticeSymbol.cmp b.latticeSymbol = .lt ∨
        (a.latticeSymbol = b.latticeSymbol ∧
          ((∃ i : Nat, a.matrixSymbols.take i = b.matrixSymbols.take i ∧
              ((∃ x y : MatrixSymbol, a.matrixSymbols[i]? = some x ∧ b.matrixSymbols[i]? = some y ∧ x.cmp y = .lt) ∨
               (a.matrixSymbols.length = i ∧ i < b.matrixSymbols.length))) ∨
           (a.matrixSymbols = b.matrixSymbols ∧ a.originShift.cmp b.originShift = .lt))) := by
  have vlt : ∀ a b : List MatrixSymbol, vecCmp MatrixSymbol.cmp a b = .lt ↔
      ∃ i : Nat, a.take i = b.take i ∧
        ((∃ x y : MatrixSymbol, a[i]? = some x ∧ b[i]? = some y ∧ x.cmp y = .lt) ∨ (a.length = i ∧ i < b.length)) := by
    intro a
    induction a with
    | nil =>
      intro b
      cases b with
      | nil => simp [vecCmp]
      | cons y b => simp only [vecCmp, true_iff]; exact ⟨0, rfl, .inr ⟨rfl, by simp⟩⟩
    | cons x a ih =>
      intro b
      cases b with
      | nil => simp [vecCmp]
      | cons y b =>
        simp only [vecCmp]
        cases hc : x.cmp y with
        | lt => simp only [true_iff]; exact ⟨0, rfl, .inl ⟨x, y, rfl, rfl, hc⟩⟩
        | eq =>
          obtain rfl := (matrixCmp_lawful.equal x y).1 hc
          simp only [ih]
          constructor
          · rintro ⟨i, h1, h2⟩
            refine ⟨i + 1, by simp [h1], ?_⟩
            simpa using h2
          · rintro ⟨i, h1, h2⟩
            cases i with
            | zero =>
              exfalso
              rcases h2 with ⟨u, v, hu, hv, h⟩ | ⟨h, _⟩
              · simp only [List.getElem?_cons_zero, Option.some.injEq] at hu hv
                subst hu hv
                rw [hc] at h; cases h
              · simp at h
            | succ i =>
              refine ⟨i, by simpa using h1, ?_⟩
              simpa using h2
        | gt =>
          simp only [reduceCtorEq, false_iff]
          rintro ⟨i, h1, h2⟩
          cases i with
          | zero =>
            rcases h2 with ⟨u, v, hu, hv, h⟩ | ⟨h, _⟩
            · simp only [List.getElem?_cons_zero, Option.some.injEq] at hu hv
              subst hu hv
              rw [hc] at h; cases h
            · simp at h
          | succ i =>
            simp only [List.take_succ_cons, List.cons.injEq] at h1
            obtain ⟨rfl, _⟩ := h1
            rw [(matrixCmp_lawful.equal x x).2 rfl] at hc; cases hc
  refine ⟨fun a b => match a.latticeSymbol.cmp b.latticeSymbol with
    | .eq => (match vecCmp MatrixSymbol.cmp a.matrixSymbols b.matrixSymbols with
      | .eq => a.originShift.cmp b.originShift
      | o => o)
    | o => o, ?_, fun a b => ?_, fun a b => ?_⟩
  · refine ((lattice_symbol_order.1.key HallSymbolNotation.latticeSymbol).andThen
      (((vecCmp_lawful matrixCmp_lawful).key HallSymbolNotation.matrixSymbols).andThen
        (origin_shift_order.1.key HallSymbolNotation.originShift))).lawful ?_
    rintro ⟨a1, a2, a3⟩ ⟨b1, b2, b3⟩ h
    simpa using h
  · simp only [HallSymbolNotation.partialCmp, vecPartialCmp_some]
    cases a.latticeSymbol.cmp b.latticeSymbol <;> simp
    cases vecCmp MatrixSymbol.cmp a.matrixSymbols b.matrixSymbols <;> simp
  · rw [← vlt]
    have h1 := lattice_symbol_order.1.equal a.latticeSymbol b.latticeSymbol
    have h2 := (vecCmp_lawful matrixCmp_lawful).equal a.matrixSymbols b.matrixSymbols
    cases e1 : a.latticeSymbol.cmp b.latticeSymbol with
    | lt => simp only [e1, true_or]
    | gt =>
      rw [e1] at h1
      have h1' : ¬ a.latticeSymbol = b.latticeSymbol := fun h => by have := h1.2 h; cases this
      simp only [e1, h1', false_and, or_false]
    | eq =>
      have h1' := h1.1 e1
      cases e2 : vecCmp MatrixSymbol.cmp a.matrixSymbols b.matrixSymbols with
      | lt => simp only [e1, e2]; exact ⟨fun _ => .inr ⟨h1', .inl trivial⟩, fun _ => trivial⟩
      | gt =>
        rw [e2] at h2
        have h2' : ¬ a.matrixSymbols = b.matrixSymbols := fun h => by have := h2.2 h; cases this
        simp only [e1, e2, h2', false_and, or_false, reduceCtorEq, and_false]
      | eq =>
        have h2' := h2.1 e2
        rw [← h2', ← h1'] at *
        simp only [e1, e2, true_and, reduceCtorEq, false_or]

example : LatticeSymbol.cmp ⟨false, .F⟩ ⟨true, .A⟩ = .lt ∧ OriginShift.cmp ⟨0, 3, -1⟩ ⟨0, 3, 2⟩ = .lt ∧
    MatrixSymbol.cmp ⟨false, .N4, .N1, .None, .Z, none⟩ ⟨false, .N4, .N1, .None, .Z, some []⟩ = .lt ∧
    HallSymbolNotation.partialCmp ⟨⟨false, .P⟩, [⟨false, .N2, .None, .None, .Z, none⟩], ⟨0, 0, 1⟩⟩
      ⟨⟨false, .P⟩, [⟨false, .N2, .None, .None, .Z, none⟩, ⟨true, .N1, .None, .None, .Z, none⟩], ⟨0, 0, 0⟩⟩
      = some .lt := by decide

/-! ## General positions -/

/-- C77. On any two `GeneralPositions`, `partial_cmp` says `Equal` exactly when every stored number is the same, hence
only on values that are `==`; on results of `general_positions` it says `Equal` exactly when they are `==`. -/
theorem positions_cmp_equal (g h : GeneralPositions) :
    (g.partialCmp h = some .eq ↔ g = h) ∧
    (∀ {n n' : HallSymbolNotation}, HasPositions n g → HasPositions n' h →
      (g.partialCmp h = some .eq ↔ g.eqv h = true)) := by
  have key : g.partialCmp h = some .eq ↔ g = h := by
    obtain ⟨g1, g2⟩ := g
    obtain ⟨h1, h2⟩ := h
    simp only [GeneralPositions.partialCmp, GeneralPositions.mk.injEq]
    split
    · rename_i e
      rw [vecPartialCmp_eq V3.partialCmp_eq_iff] at e
      rw [vecPartialCmp_eq M4.partialCmp_eq_iff]
      exact ⟨fun h => ⟨e, h⟩, fun h => h.2⟩
    · rename_i e
      constructor
      · intro h; exact absurd h (by simpa using e)
      · rintro ⟨rfl, _⟩
        exact absurd ((vecPartialCmp_eq V3.partialCmp_eq_iff g1 g1).2 rfl) (by simpa using e)
  exact ⟨key, fun hg hh => key.trans (computed_positions_eq hg hh).1.symm⟩

/-- Outside results of `general_positions` the two can differ, and two positions can be incomparable. -/
example : GeneralPositions.eqv ⟨[⟨0, 0, 0⟩], [⟨M3.one, ⟨12, 0, 0⟩, V3.zero, 1⟩]⟩ ⟨[⟨0, 0, 0⟩], [M4.identity]⟩ = true ∧
    GeneralPositions.partialCmp ⟨[⟨0, 0, 0⟩], [⟨M3.one, ⟨12, 0, 0⟩, V3.zero, 1⟩]⟩ ⟨[⟨0, 0, 0⟩], [M4.identity]⟩
      = some .gt ∧
    GeneralPositions.partialCmp (positionsOf "P 2") (positionsOf "P -2") = none := by decide +kernel

/-! ## Names of rotation types -/

/-- C77. The names printed for rotation types: a digit for the order of the proper part, and a bar exactly for the
improper types; different types print differently. -/
theorem rotation_type_names :
    (∀ a b : RotationType, a.text = b.text → a = b) ∧
    ∀ (m : M4) (t : RotationType), m.rotationType = some t →
      (t.text.length = 2 ↔ m.det = -1) ∧ (t.text.length = 1 ↔ m.det = 1) ∧
      t.text.head? = (M4.natText (M4.typeOrder t)).head? := by
  constructor
  · intro a b; cases a <;> cases b <;> decide
  · intro m t h
    unfold M4.rotationType at h
    split at h <;> first | (cases h; rename_i e1 e2; simp [RotationType.text, e1]; decide) | cases h

example : (RotationType.M3.text = ['3', '\u0305']) ∧ M4.inversion.rotationType = some .I := by decide

end Verif
