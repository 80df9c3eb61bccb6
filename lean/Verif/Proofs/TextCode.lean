import Mathlib.Data.List.Nodup
import Mathlib.Data.List.Induction

/-! # Texts as numbers -/

namespace Verif

/-- A number for a text, different for different texts. -/
def textCode (s : String) : Nat := s.toList.foldl (fun acc c => acc * 1114112 + c.toNat) 1

theorem foldl_code_inj (l : List Char) : ∀ (l' : List Char), l.foldl (fun acc c => acc * 1114112 + c.toNat) 1 =
    l'.foldl (fun acc c => acc * 1114112 + c.toNat) 1 → l = l' := by
  induction l using List.reverseRecOn with
  | nil =>
    intro l'
    induction l' using List.reverseRecOn with
    | nil => intro _; rfl
    | append_singleton l' c _ =>
      intro h
      simp only [List.foldl_append, List.foldl_cons, List.foldl_nil] at h
      have hpos : ∀ l : List Char, 0 < l.foldl (fun acc c => acc * 1114112 + c.toNat) 1 := by
        intro l
        induction l using List.reverseRecOn with
        | nil => decide
        | append_singleton l c ih => simp only [List.foldl_append, List.foldl_cons, List.foldl_nil]; omega
      have := hpos l'
      omega
  | append_singleton l c ih =>
    intro l'
    induction l' using List.reverseRecOn with
    | nil =>
      intro h
      simp only [List.foldl_append, List.foldl_cons, List.foldl_nil] at h
      have hpos : ∀ l : List Char, 0 < l.foldl (fun acc c => acc * 1114112 + c.toNat) 1 := by
        intro l
        induction l using List.reverseRecOn with
        | nil => decide
        | append_singleton l c ih => simp only [List.foldl_append, List.foldl_cons, List.foldl_nil]; omega
      have := hpos l
      omega
    | append_singleton l' c' _ =>
      intro h
      simp only [List.foldl_append, List.foldl_cons, List.foldl_nil] at h
      have b : ∀ c : Char, c.toNat < 1114112 := by
        intro c
        have := c.valid
        simp only [UInt32.isValidChar, Nat.isValidChar] at this
        have e : c.toNat = c.val.toNat := rfl
        omega
      have b1 := b c
      have b2 := b c'
      have h1 : c.toNat = c'.toNat := by omega
      have h2 : l = l' := ih l' (by omega)
      have h3 : c = c' := Char.ext (UInt32.toNat_inj.1 h1)
      rw [h2, h3]

theorem textCode_inj {s t : String} (h : textCode s = textCode t) : s = t :=
  String.toList_injective (foldl_code_inj _ _ h)

/-- Equality of two lists of characters, by their codes. -/
def charsB : List Char → List Char → Bool
  | [], [] => true
  | a :: l, b :: l' => Nat.beq a.toNat b.toNat && charsB l l'
  | _, _ => false

theorem char_toNat_inj {a b : Char} (h : a.toNat = b.toNat) : a = b := Char.ext (UInt32.toNat_inj.1 h)

theorem charsB_sound {l l' : List Char} (h : charsB l l' = true) : l = l' := by
  induction l generalizing l' with
  | nil => cases l' with
    | nil => rfl
    | cons b l' => cases h
  | cons a l ih => cases l' with
    | nil => cases h
    | cons b l' =>
      simp only [charsB, Bool.and_eq_true, Nat.beq_eq] at h
      rw [char_toNat_inj h.1, ih h.2]

/-- The test `ok` holds for all pairs of entries with the same number (checked by partitioning). -/
def quick {α : Type} (ok : α → α → Bool) : Nat → List (Nat × α) → Bool
  | 0, l => l.isEmpty
  | _ + 1, [] => true
  | k + 1, p :: t => t.all (fun b => ! Nat.beq p.1 b.1 || ok p.2 b.2) && quick ok k (t.filter fun b => Nat.blt b.1 p.1) &&
      quick ok k (t.filter fun b => ! Nat.blt b.1 p.1)

theorem pairwise_of_filters {β : Type} {r : β → β → Prop} (p : β → Bool) {l : List β}
    (h1 : (l.filter p).Pairwise r) (h2 : (l.filter fun b => ! p b).Pairwise r)
    (h3 : ∀ a b, p a ≠ p b → r a b) : l.Pairwise r := by
  induction l with
  | nil => exact .nil
  | cons a l ih =>
    cases ha : p a with
    | true =>
      rw [List.filter_cons_of_pos ha, List.pairwise_cons] at h1
      rw [List.filter_cons_of_neg (by rw [ha]; decide)] at h2
      refine .cons (fun b hb => ?_) (ih h1.2 h2)
      cases hpb : p b with
      | true => exact h1.1 b (List.mem_filter.2 ⟨hb, hpb⟩)
      | false => exact h3 a b (by rw [ha, hpb]; decide)
    | false =>
      rw [List.filter_cons_of_pos (by rw [ha]; decide), List.pairwise_cons] at h2
      rw [List.filter_cons_of_neg (by rw [ha]; decide)] at h1
      refine .cons (fun b hb => ?_) (ih h1 h2.2)
      cases hpb : p b with
      | false => exact h2.1 b (List.mem_filter.2 ⟨hb, by rw [hpb]; decide⟩)
      | true => exact h3 a b (by rw [ha, hpb]; decide)

theorem quick_iff {α : Type} {ok : α → α → Bool} : ∀ {k : Nat} {l : List (Nat × α)}, quick ok k l = true →
    l.Pairwise fun a b => a.1 = b.1 → ok a.2 b.2 = true := by
  intro k
  induction k with
  | zero =>
    intro l h
    cases l with
    | nil => exact .nil
    | cons => cases h
  | succ k ih =>
    intro l h
    cases l with
    | nil => exact .nil
    | cons p t =>
      simp only [quick, Bool.and_eq_true, List.all_eq_true, Bool.or_eq_true, Bool.not_eq_true'] at h
      refine .cons (fun b hb e => ?_) (pairwise_of_filters (fun b => Nat.blt b.1 p.1) (ih h.1.2) (ih h.2) ?_)
      · rcases h.1.1 b hb with h | h
        · rw [e, Nat.beq_refl] at h; cases h
        · exact h
      · intro a b hne e
        exact absurd (by rw [e]) hne

/-- All numbers of the list differ (the factor only mixes the order, to keep the partitions small). -/
def nodupNat (l : List Nat) : Bool := quick (fun a b => ! Nat.beq a b) (l.length + 1) (l.map fun a => (7919 * a % 100003, a))

theorem nodupNat_iff {l : List Nat} (h : nodupNat l = true) : l.Nodup := by
  have := quick_iff h
  rw [List.pairwise_map] at this
  refine this.imp ?_
  rintro a b h rfl
  have := h rfl
  rw [Nat.beq_refl] at this
  cases this

theorem nodup_of_codes {l : List String} {codes : List Nat} (e : l.map textCode = codes) (h : nodupNat codes = true) : l.Nodup :=
  (nodupNat_iff (e ▸ h)).of_map _

end Verif
