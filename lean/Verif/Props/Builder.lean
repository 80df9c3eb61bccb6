import Mathlib.Data.List.Induction
import Mathlib.Tactic.Push
import Verif.Model.Builder

/-! # The builder of matrix symbols (C71) -/

namespace Verif

/-- Specification: `x` is the argument of the last call in `calls` that sets the field selected by `field`. -/
def LastSet {α : Type} (field : SetCall → Option α) (calls : List SetCall) (x : α) : Prop :=
  ∃ before c after, calls = before ++ c :: after ∧ field c = some x ∧ ∀ c' ∈ after, field c' = none

/-- Specification: no call in `calls` sets the field. -/
def NeverSet {α : Type} (field : SetCall → Option α) (calls : List SetCall) : Prop := ∀ c ∈ calls, field c = none

/-- Specification: the field of the result is the last value set, or the default when it was never set. -/
def LastOr {α : Type} (field : SetCall → Option α) (calls : List SetCall) (dflt x : α) : Prop :=
  LastSet field calls x ∨ NeverSet field calls ∧ x = dflt

/-- The field selectors: which setter a call is, and its argument. -/
def SetCall.asMinus : SetCall → Option Bool | .minusSign v => some v | _ => none
/-- See `SetCall.asMinus`. -/
def SetCall.asBody : SetCall → Option NFold | .nfoldBody v => some v | _ => none
/-- See `SetCall.asMinus`. -/
def SetCall.asSub : SetCall → Option NFoldSub | .nfoldSub v => some v | _ => none
/-- See `SetCall.asMinus`. -/
def SetCall.asDiag : SetCall → Option NFoldDiag | .nfoldDiag v => some v | _ => none
/-- See `SetCall.asMinus`. -/
def SetCall.asAxis : SetCall → Option RotationAxis | .rotationAxis v => some v | _ => none
/-- See `SetCall.asMinus`. -/
def SetCall.asTrans : SetCall → Option (Option (List TranslationSymbol)) | .translationSymbols v => some v | _ => none

/-- Induction from the right: what one more call does to `LastOr`. -/
private theorem lastOr_snoc {α : Type} (field : SetCall → Option α) (calls : List SetCall) (c : SetCall) (d x : α) :
    LastOr field (calls ++ [c]) d x ↔ (match field c with | some v => x = v | none => LastOr field calls d x) := by
  cases hc : field c with
  | some v =>
    simp only []
    constructor
    · rintro (⟨b, e, a, heq, he, ha⟩ | ⟨hn, -⟩)
      · rcases List.eq_nil_or_concat a with rfl | ⟨a', z, rfl⟩
        · have := List.append_inj_right' heq rfl
          simp only [List.cons.injEq, and_true] at this
          subst this
          rw [hc] at he; exact (Option.some.inj he).symm
        · have h2 : calls ++ [c] = (b ++ e :: a') ++ [z] := by rw [heq]; simp
          have := List.append_inj_right' h2 rfl
          simp only [List.cons.injEq, and_true] at this
          subst this
          have := ha c (by simp)
          rw [hc] at this; cases this
      · have := hn c (by simp); rw [hc] at this; cases this
    · rintro rfl
      exact Or.inl ⟨calls, c, [], rfl, hc, by simp⟩
  | none =>
    simp only []
    constructor
    · rintro (⟨b, e, a, heq, he, ha⟩ | ⟨hn, hd⟩)
      · rcases List.eq_nil_or_concat a with rfl | ⟨a', z, rfl⟩
        · have := List.append_inj_right' heq rfl
          simp only [List.cons.injEq, and_true] at this
          subst this
          rw [hc] at he; cases he
        · have h2 : calls ++ [c] = (b ++ e :: a') ++ [z] := by rw [heq]; simp
          have := List.append_inj_left' h2 rfl
          exact Or.inl ⟨b, e, a', this, he, fun c' h => ha c' (by simp [h])⟩
      · exact Or.inr ⟨fun c' h => hn c' (by simp [h]), hd⟩
    · rintro (⟨b, e, a, heq, he, ha⟩ | ⟨hn, hd⟩)
      · refine Or.inl ⟨b, e, a ++ [c], by rw [heq]; simp, he, ?_⟩
        intro c' h
        simp only [List.mem_append, List.mem_singleton] at h
        rcases h with h | rfl
        · exact ha c' h
        · exact hc
      · refine Or.inr ⟨?_, hd⟩
        intro c' h
        simp only [List.mem_append, List.mem_singleton] at h
        rcases h with h | rfl
        · exact hn c' h
        · exact hc

private theorem lastOr_nil {α : Type} (field : SetCall → Option α) (d x : α) : LastOr field [] d x ↔ x = d := by
  constructor
  · rintro (⟨b, e, a, heq, -, -⟩ | ⟨-, h⟩)
    · simp at heq
    · exact h
  · rintro rfl; exact Or.inr ⟨(by intro c h; cases h), rfl⟩

/-- The state of the builder after any calls. -/
private theorem builder_state (calls : List SetCall) :
    let b := calls.foldl MatrixSymbolBuilder.call newBuilder
    LastOr SetCall.asMinus calls false (b.minusSign.getD false) ∧
    LastOr SetCall.asSub calls .None (b.nfoldSub.getD .None) ∧
    LastOr SetCall.asDiag calls .None (b.nfoldDiag.getD .None) ∧
    LastOr SetCall.asAxis calls .Z (b.rotationAxis.getD .Z) ∧
    LastOr SetCall.asTrans calls none b.translationSymbols ∧
    LastOr (fun c => c.asBody.map some) calls none b.nfoldBody := by
  induction calls using List.reverseRecOn with
  | nil => simp [lastOr_nil, newBuilder]
  | append_singleton cs c ih =>
    simp only [List.foldl_append, List.foldl_cons, List.foldl_nil, lastOr_snoc]
    obtain ⟨h1, h2, h3, h4, h5, h6⟩ := ih
    cases c <;>
      simp only [MatrixSymbolBuilder.call, MatrixSymbolBuilder.setMinusSign, MatrixSymbolBuilder.setNFoldBody,
        MatrixSymbolBuilder.setNFoldSub, MatrixSymbolBuilder.setNFoldDiag, MatrixSymbolBuilder.setRotationAxis,
        MatrixSymbolBuilder.setTranslationSymbols, SetCall.asMinus, SetCall.asBody, SetCall.asSub, SetCall.asDiag,
        SetCall.asAxis, SetCall.asTrans, Option.map_some, Option.map_none, Option.getD_some] <;>
      (refine ⟨?_, ?_, ?_, ?_, ?_, ?_⟩ <;> first | trivial | assumption | rfl)

private theorem lastSet_body (calls : List SetCall) (x : NFold) :
    LastOr (fun c => c.asBody.map some) calls none (some x) ↔ LastSet SetCall.asBody calls x := by
  constructor
  · rintro (⟨b, e, a, heq, he, ha⟩ | ⟨-, h⟩)
    · refine ⟨b, e, a, heq, ?_, fun c' h => by simpa using ha c' h⟩
      simpa using he
    · cases h
  · rintro ⟨b, e, a, heq, he, ha⟩
    exact Or.inl ⟨b, e, a, heq, by simp [he], fun c' h => by simp [ha c' h]⟩

private theorem lastOr_fun {α : Type} {field : SetCall → Option α} {calls : List SetCall} {d x y : α}
    (hx : LastOr field calls d x) (hy : LastOr field calls d y) : x = y := by
  induction calls using List.reverseRecOn generalizing x y with
  | nil => rw [lastOr_nil] at hx hy; rw [hx, hy]
  | append_singleton cs c ih =>
    rw [lastOr_snoc] at hx hy
    cases hc : field c with
    | some v => rw [hc] at hx hy; simp only [] at hx hy; rw [hx, hy]
    | none => rw [hc] at hx hy; exact ih hx hy

/-- C71. What `new_builder().set_…(…)….build()` returns, for every chain of setter calls in every order: `m` is returned
exactly when its rotation order was set and every field of `m` holds the argument of the last call of its setter, or
its default (`false`, no subscript, no diagonal, axis z, no translations) when the setter was never called. -/
theorem build_returns_iff (calls : List SetCall) (m : MatrixSymbol) :
    buildFrom calls = some m ↔
      LastSet SetCall.asBody calls m.nfoldBody ∧
      LastOr SetCall.asMinus calls false m.minusSign ∧
      LastOr SetCall.asSub calls NFoldSub.None m.nfoldSub ∧
      LastOr SetCall.asDiag calls NFoldDiag.None m.nfoldDiag ∧
      LastOr SetCall.asAxis calls RotationAxis.Z m.rotationAxis ∧
      LastOr SetCall.asTrans calls none m.translationSymbols := by
  obtain ⟨h1, h2, h3, h4, h5, h6⟩ := builder_state calls
  unfold buildFrom MatrixSymbolBuilder.build
  cases hb : (calls.foldl MatrixSymbolBuilder.call newBuilder).nfoldBody with
  | none =>
    rw [hb] at h6
    constructor
    · intro h; simp at h
    · rintro ⟨h, -⟩
      have := lastOr_fun ((lastSet_body calls m.nfoldBody).mpr h) h6
      cases this
  | some body =>
    rw [hb] at h6
    simp only [Option.some.injEq]
    constructor
    · rintro rfl
      exact ⟨(lastSet_body _ _).mp h6, h1, h2, h3, h4, h5⟩
    · rintro ⟨g6, g1, g2, g3, g4, g5⟩
      have e6 := lastOr_fun ((lastSet_body calls m.nfoldBody).mpr g6) h6
      have e1 := lastOr_fun g1 h1
      have e2 := lastOr_fun g2 h2
      have e3 := lastOr_fun g3 h3
      have e4 := lastOr_fun g4 h4
      have e5 := lastOr_fun g5 h5
      obtain ⟨a1, a2, a3, a4, a5, a6⟩ := m
      simp only [Option.some.injEq] at e1 e2 e3 e4 e5 e6
      subst e1 e2 e3 e4 e5 e6
      rfl

/-- A case of `build_returns_iff`: the second of two axes wins, the unset fields take their defaults. -/
example : buildFrom [.rotationAxis .X, .nfoldBody .N2, .translationSymbols (some [.D]), .rotationAxis .Y] =
    some ⟨false, .N2, .None, .None, .Y, some [.D]⟩ := rfl

/-- C71. `build()` reports incomplete fields exactly when the rotation order was never set. -/
theorem build_fails_iff (calls : List SetCall) :
    buildFrom calls = none ↔ ∀ n : NFold, SetCall.nfoldBody n ∉ calls := by
  constructor
  · intro h n hmem
    obtain ⟨-, -, -, -, -, h6⟩ := builder_state calls
    have hb : (calls.foldl MatrixSymbolBuilder.call newBuilder).nfoldBody = none := by
      unfold buildFrom MatrixSymbolBuilder.build at h
      cases hb : (calls.foldl MatrixSymbolBuilder.call newBuilder).nfoldBody with
      | none => rfl
      | some b => rw [hb] at h; cases h
    rw [hb] at h6
    rcases h6 with ⟨b, e, a, heq, he, -⟩ | ⟨hn, -⟩
    · cases hx : e.asBody <;> simp [hx] at he
    · have := hn _ hmem
      simp [SetCall.asBody] at this
  · intro h
    cases hr : buildFrom calls with
    | none => rfl
    | some m =>
      obtain ⟨⟨b, e, a, heq, he, -⟩, -⟩ := (build_returns_iff calls m).mp hr
      exfalso
      cases e with
      | nfoldBody v => exact h v (by rw [heq]; simp)
      | _ => simp [SetCall.asBody] at he

/-- Both sides of `build_fails_iff` occur. -/
example : buildFrom [.minusSign true, .rotationAxis .Y] = none ∧ (buildFrom [.nfoldBody .N6]).isSome := by decide

/-- C71. Every matrix symbol can be built, from the setters called in any order: for every arrangement of the six calls
with the fields of `m`, `build()` returns `m`. -/
theorem build_any_order (m : MatrixSymbol) (calls : List SetCall)
    (h : calls.Perm [.minusSign m.minusSign, .nfoldBody m.nfoldBody, .nfoldSub m.nfoldSub, .nfoldDiag m.nfoldDiag,
      .rotationAxis m.rotationAxis, .translationSymbols m.translationSymbols]) :
    buildFrom calls = some m := by
  have key : ∀ {α : Type} (field : SetCall → Option α) (c : SetCall) (x : α), c ∈ calls → field c = some x →
      (∀ c' ∈ calls, field c' = some x ∨ field c' = none) → LastSet field calls x := by
    intro α field c x hc hx hall
    clear h
    induction calls using List.reverseRecOn with
    | nil => cases hc
    | append_singleton l z ihl =>
      by_cases hzx : field z = some x
      · exact ⟨l, z, [], rfl, hzx, by simp⟩
      · have hzn : field z = none := (hall z (by simp)).resolve_left hzx
        simp only [List.mem_append, List.mem_singleton] at hc
        rcases hc with hw | rfl
        · obtain ⟨b, e', a, heq, he', ha⟩ := ihl hw (fun c3 h3 => hall c3 (by simp [h3]))
          refine ⟨b, e', a ++ [z], by rw [heq]; simp, he', ?_⟩
          intro c4 h4
          simp only [List.mem_append, List.mem_singleton] at h4
          rcases h4 with h4 | rfl
          · exact ha _ h4
          · exact hzn
        · exact absurd hx hzx
  have hm : ∀ c, c ∈ calls ↔ c ∈ ([.minusSign m.minusSign, .nfoldBody m.nfoldBody, .nfoldSub m.nfoldSub,
      .nfoldDiag m.nfoldDiag, .rotationAxis m.rotationAxis, .translationSymbols m.translationSymbols] : List SetCall) :=
    fun c => h.mem_iff
  have hall : ∀ {α : Type} (field : SetCall → Option α) (x : α),
      (∀ c' ∈ ([.minusSign m.minusSign, .nfoldBody m.nfoldBody, .nfoldSub m.nfoldSub,
      .nfoldDiag m.nfoldDiag, .rotationAxis m.rotationAxis, .translationSymbols m.translationSymbols] : List SetCall),
        field c' = some x ∨ field c' = none) → ∀ c' ∈ calls, field c' = some x ∨ field c' = none :=
    fun field x hh c' h' => hh c' ((hm c').mp h')
  rw [build_returns_iff]
  refine ⟨key _ (.nfoldBody m.nfoldBody) _ ?_ rfl (hall _ _ ?_), Or.inl (key _ (.minusSign m.minusSign) _ ?_ rfl (hall _ _ ?_)),
    Or.inl (key _ (.nfoldSub m.nfoldSub) _ ?_ rfl (hall _ _ ?_)), Or.inl (key _ (.nfoldDiag m.nfoldDiag) _ ?_ rfl (hall _ _ ?_)),
    Or.inl (key _ (.rotationAxis m.rotationAxis) _ ?_ rfl (hall _ _ ?_)),
    Or.inl (key _ (.translationSymbols m.translationSymbols) _ ?_ rfl (hall _ _ ?_))⟩ <;>
  first
    | (rw [hm]; simp; done)
    | (intro c' hc'
       simp only [List.mem_cons, List.not_mem_nil, or_false] at hc'
       rcases hc' with rfl | rfl | rfl | rfl | rfl | rfl <;>
         simp [SetCall.asMinus, SetCall.asBody, SetCall.asSub, SetCall.asDiag, SetCall.asAxis, SetCall.asTrans])

/-- Specification: the setter of the builder with the same name and argument. -/
def SymbolCall.toSetCall : SymbolCall → SetCall
  | .minusSign v => .minusSign v
  | .nfoldBody v => .nfoldBody v
  | .nfoldSub v => .nfoldSub v
  | .nfoldDiag v => .nfoldDiag v
  | .rotationAxis v => .rotationAxis v

/-- C71. Changing a finished symbol with its own setters, however often, gives the symbol that the builder gives when
the setters of the same names are called after the ones that made the first symbol. -/
theorem setters_like_builder (calls : List SetCall) (m : MatrixSymbol) (h : buildFrom calls = some m)
    (more : List SymbolCall) :
    buildFrom (calls ++ more.map SymbolCall.toSetCall) = some (more.foldl MatrixSymbol.call m) := by
  induction more generalizing calls m with
  | nil => simpa using h
  | cons c cs ih =>
    have hstep : buildFrom (calls ++ [c.toSetCall]) = some (m.call c) := by
      unfold buildFrom at h ⊢
      rw [List.foldl_append]
      simp only [List.foldl_cons, List.foldl_nil]
      unfold MatrixSymbolBuilder.build at h
      cases hb : (calls.foldl MatrixSymbolBuilder.call newBuilder).nfoldBody with
      | none => rw [hb] at h; cases h
      | some body =>
        rw [hb] at h
        simp only [Option.some.injEq] at h
        subst h
        cases c <;> simp [SymbolCall.toSetCall, MatrixSymbolBuilder.call, MatrixSymbolBuilder.setMinusSign,
          MatrixSymbolBuilder.setNFoldBody, MatrixSymbolBuilder.setNFoldSub, MatrixSymbolBuilder.setNFoldDiag,
          MatrixSymbolBuilder.setRotationAxis, MatrixSymbolBuilder.build, MatrixSymbol.call, hb]
    have := ih _ _ hstep
    simpa [List.append_assoc] using this

/-- A case of `setters_like_builder`: `2"` turned about z, as in the test of matrix_symbol/mod.rs:147-148. -/
example : ([.rotationAxis .Z, .minusSign true].foldl MatrixSymbol.call ⟨false, .N2, .None, .DoubleQuote, .X, none⟩) =
    (⟨true, .N2, .None, .DoubleQuote, .Z, none⟩ : MatrixSymbol) := rfl

end Verif
