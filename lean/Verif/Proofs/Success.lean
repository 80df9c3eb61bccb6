import Mathlib.Algebra.BigOperators.Group.List.Basic
import Verif.Proofs.Positions
import Verif.Props.Text
import Verif.Props.Symbols

/-! # When `general_positions` succeeds: lemmas -/

namespace Verif

open HallSymbolNotation

/-! ## The reference orders -/

theorem orderIndex_isSome (order : List String) (t : List Char) :
    (∃ i, orderIndex order t = some i) ↔ ∃ s ∈ order, s.toList = t := by
  induction order with
  | nil => simp [orderIndex]
  | cons s order ih =>
    unfold orderIndex
    split
    · rename_i h; simp [h]
    · rename_i h
      rw [List.exists_mem_cons_iff]
      simp only [h, false_or, ← ih]
      constructor
      · rintro ⟨i, hi⟩
        cases hi' : orderIndex order t with
        | none => rw [hi'] at hi; cases hi
        | some j => exact ⟨j, rfl⟩
      · rintro ⟨i, hi⟩
        exact ⟨i + 1, by rw [hi]; rfl⟩

theorem sortKey_isOk (order : List String) (m : M4) :
    (∃ k, sortKey order m = .ok k) ↔ ∃ t, m.jonesRot = .ok t ∧ ∃ s ∈ order, s.toList = t := by
  unfold sortKey
  cases ht : m.jonesRot with
  | error e =>
    constructor
    · rintro ⟨k, hk⟩; cases hk
    · rintro ⟨t, h, _⟩; cases h
  | ok t =>
    constructor
    · rintro ⟨k, hk⟩
      refine ⟨t, rfl, (orderIndex_isSome order t).1 ?_⟩
      cases hi : orderIndex order t with
      | none =>
        change (match orderIndex order t with | some i => pure i | none => Except.error Panic.orderMismatch) = _ at hk
        rw [hi] at hk; cases hk
      | some i => exact ⟨i, rfl⟩
    · rintro ⟨t', h, hs⟩
      cases h
      obtain ⟨i, hi⟩ := (orderIndex_isSome order t).2 hs
      refine ⟨i, ?_⟩
      change (match orderIndex order t with | some i => pure i | none => Except.error Panic.orderMismatch) = _
      rw [hi]; rfl

/-- Boolean check that a reference order lists exactly the rotations `L`. -/
def orderCheck (order : List String) (L : List M3) : Bool :=
  order.all (fun s => s.toList.all (fun c => decide (c.toNat < 128)) &&
    L.any fun r => decide (M4.jonesRot ⟨r, V3.zero, V3.zero, 1⟩ = .ok s.toList)) &&
  L.all fun r => r.toList.all (fun v => decide (-1 ≤ v) && decide (v ≤ 1)) &&
    order.any fun s => decide (M4.jonesRot ⟨r, V3.zero, V3.zero, 1⟩ = .ok s.toList)

theorem orderCheck_sound {order : List String} {L : List M3} (h : orderCheck order L = true) (m : M4) :
    (∃ k, sortKey order m = .ok k) ↔ m.rot ∈ L := by
  simp only [orderCheck, Bool.and_eq_true, List.all_eq_true, List.any_eq_true, decide_eq_true_eq] at h
  obtain ⟨h1, h2⟩ := h
  have hsame : m.jonesRot = M4.jonesRot ⟨m.rot, V3.zero, V3.zero, 1⟩ := rotation_text_ignores_translation _ _ rfl
  rw [sortKey_isOk]
  constructor
  · rintro ⟨t, ht, s, hs, rfl⟩
    obtain ⟨ha, r, hr, hrt⟩ := h1 s hs
    have hm := jonesRot_ascii_small ht ha
    have hr' : r.Small := (h2 r hr).1
    have := rotation_text_injective m ⟨r, V3.zero, V3.zero, 1⟩ hm hr' (ht.trans hrt.symm)
    rw [this]; exact hr
  · intro hm
    obtain ⟨_, s, hs, hst⟩ := h2 _ hm
    exact ⟨_, hsame.trans hst, s, hs, rfl⟩

/-- The rhombohedral matrices. -/
def rhombList : List M3 :=
  cubicList.filter fun r => decide (r.mulVec ⟨1, 1, 1⟩ = ⟨1, 1, 1⟩ ∨ r.mulVec ⟨1, 1, 1⟩ = ⟨-1, -1, -1⟩)

theorem order48_check : orderCheck Data.order48 cubicList = true := by decide +kernel
theorem order24_check : orderCheck Data.order24 hexList = true := by decide +kernel
theorem order12_check : orderCheck Data.order12 rhombList = true := by decide +kernel

/-! ## Point groups inside a finite group -/

/-- A finite group of unimodular matrices. -/
structure FiniteRotations (S : Set M3) : Prop where
  finite : S.Finite
  one : M3.one ∈ S
  mul : ∀ a ∈ S, ∀ b ∈ S, a.mul b ∈ S

theorem pointGroup_subset {n : HallSymbolNotation} {S : Set M3} (hS : FiniteRotations S)
    (hinv : n.latticeSymbol.minusSign = true → M4.inversion.rot ∈ S)
    (hgen : ∀ s ∈ n.matrixSymbols, ∀ g, s.seitzMatrix = some g → g.rot ∈ S) : PointGroup n ⊆ S := by
  rintro _ ⟨f, hf, m, rfl, e⟩
  induction hf generalizing m with
  | one =>
    have e' : (trMat V3.zero).act = m.act := by rw [← e, trMat, M4.act_mk_one _ _ _ rfl]
    rw [← (M4.act_inj e').1]; exact hS.one
  | cell k =>
    rw [cell_act] at e
    rw [← (M4.act_inj e).1]; exact hS.one
  | centring hv =>
    rw [← trMat_act] at e
    rw [← (M4.act_inj e).1]; exact hS.one
  | inversion hm =>
    rw [inversion_act] at e
    rw [← (M4.act_inj e).1]; exact hinv hm
  | @generator s g' hs hg =>
    rw [shifted_act] at e
    rw [← (M4.act_inj e).1]
    exact hgen s hs g' hg
  | comp h1 h2 ih1 ih2 =>
    obtain ⟨a, rfl, _, _⟩ := h1.isOp
    obtain ⟨b, rfl, _, _⟩ := h2.isOp
    rw [M4.act_comp] at e
    rw [← (M4.act_inj e).1]
    exact hS.mul _ (ih1 a rfl) _ (ih2 b rfl)
  | @inv f f' h0 h1 h2 ih =>
    obtain ⟨a, rfl, _, hu⟩ := h0.isOp
    subst e
    rw [M4.act_comp] at h1
    have e1 : (trMat V3.zero).act = id := M4.act_mk_one _ _ _ rfl
    have h3 := (M4.act_inj (h1.trans e1.symm)).1
    have h4 : m.rot = a.rot.uinv := M3.mul_left_cancel hu (by rw [M3.mul_uinv hu]; exact h3)
    rw [h4]
    exact uinv_mem_of_finite hS.finite hS.mul hS.one (ih a rfl) hu

/-! ## The capacity -/

theorem seitz_equivNum {s : MatrixSymbol} {g : M4} (h : s.seitzMatrix = some g) :
    g.equivNum = .ok s.nfoldBody.number := by
  have ha := (seitzMatrix_affine h).1
  obtain ⟨r, hr, hg⟩ := seitzMatrix_rot h
  have e : g.equivNum = M4.equivNum ⟨g.rot, V3.zero, V3.zero, 1⟩ := by
    unfold M4.equivNum M4.rotationType M4.trace M4.det
    rw [ha.2]
  rw [e, hg]
  clear e hg ha h
  generalize s.minusSign = b
  generalize s.nfoldBody = f at hr ⊢
  generalize s.nfoldDiag = d at hr
  generalize s.rotationAxis = a at hr
  cases b <;> cases f <;> cases d <;> cases a <;> first
    | (simp [rotationMatrix] at hr; done)
    | (simp only [rotationMatrix, Option.some.injEq] at hr; subst hr; decide)

end Verif
