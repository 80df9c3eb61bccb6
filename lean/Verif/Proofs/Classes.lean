import Verif.Proofs.Subgroups
import Verif.Proofs.Inverse
import Verif.Proofs.RowFacts

/-! # Every group of symmetries of a cell belongs to one of the 32 crystal classes -/

namespace Verif.Subs

/-- Number of a type in the tables of kinds. -/
def code : RotationType → Nat
  | .E => 0 | .N2 => 1 | .N3 => 2 | .N4 => 3 | .N6 => 4 | .I => 5 | .M => 6 | .M3 => 7 | .M4 => 8 | .M6 => 9

/-- Is the element at place `i` of the type? -/
def kindB (K : Nat) (t : RotationType) (i : Nat) : Bool := Nat.beq (Nat.mod (Nat.shiftRight K (Nat.mul 4 i)) 16) (code t)

/-- Number of elements of a type. -/
def countKind (K : Nat) (t : RotationType) : List Nat → Nat
  | [] => 0
  | i :: H => bif kindB K t i then Nat.succ (countKind K t H) else countKind K t H

theorem countKind_eq (K : Nat) (t : RotationType) (H : List Nat) : countKind K t H = (H.filter (kindB K t)).length := by
  induction H with
  | nil => rfl
  | cons i H ih =>
    rw [countKind, ih, List.filter_cons]
    cases kindB K t i <;> simp

/-- The group is of one of the classes. -/
def classCheck (K : Nat) (s : Nat × List Nat × List Nat × List Nat) : Bool :=
  crystalClasses.any fun c => allTypes.all fun t => Nat.beq (countKind K t s.2.1) (c.2.get t)

/-- The table of products and the table of kinds are right. -/
def tableCheck (L : List M3) (T K : Nat) : Bool :=
  (List.range L.length).all fun i =>
    (allTypes.all fun t => kindB K t i == typeB t (L.getD i M3.one)) &&
    (List.range L.length).all fun j =>
      Nat.blt (mulIdx T i j) L.length &&
      ((L.getD i M3.one).mul (L.getD j M3.one)).eqB (L.getD (mulIdx T i j) M3.one)

theorem allTypes_mem (t : RotationType) : t ∈ allTypes := by cases t <;> decide

theorem class_of_closed {L : List M3} {T K id : Nat} {masks : List Nat} {subs : List (Nat × List Nat × List Nat × List Nat)}
    (hL : L.Nodup) (ht : tableCheck L T K = true) (hid : L.getD id M3.one = M3.one ∧ id < L.length)
    (hm : subs.map (·.1) = masks) (h0 : 1 <<< id ∈ masks) (hc : subs.all (subCheck T L.length id masks) = true)
    (hk : subs.all (fun s => decide s.2.1.Nodup && classCheck K s) = true)
    {S : Set M3} (hone : M3.one ∈ S) (hmul : ∀ a ∈ S, ∀ b ∈ S, a.mul b ∈ S) (hsub : ∀ a ∈ S, a ∈ L) :
    ∃ c ∈ crystalClasses, ∀ t, {r ∈ S | typeB t r = true}.ncard = c.2.get t := by
  classical
  simp only [tableCheck, List.all_eq_true, List.mem_range, Bool.and_eq_true, beq_iff_eq, M3.eqB_iff,
    Nat.blt_eq] at ht
  let G : Nat → Prop := fun i => i < L.length ∧ L.getD i M3.one ∈ S
  obtain ⟨s, hs, hG⟩ := subs_complete (G := G) hm h0 hc
    (fun i j hi hj => by
      obtain ⟨h1, h2⟩ := (ht i hi.1).2 j hj.1
      exact ⟨h1, h2 ▸ hmul _ hi.2 _ hj.2⟩)
    ⟨hid.2, by rw [hid.1]; exact hone⟩ (fun i hi => hi.1)
  have hk := List.all_eq_true.1 hk s hs
  rw [Bool.and_eq_true, decide_eq_true_iff] at hk
  obtain ⟨hnd, hk⟩ := hk
  simp only [classCheck, List.any_eq_true, List.all_eq_true, Nat.beq_eq] at hk
  obtain ⟨c, hc, hk⟩ := hk
  refine ⟨c, hc, fun t => ?_⟩
  rw [← hk t (allTypes_mem t), countKind_eq]
  have inj : ∀ i ∈ s.2.1, ∀ j ∈ s.2.1, L.getD i M3.one = L.getD j M3.one → i = j := by
    intro i hi j hj e
    have h1 := ((hG i).1 hi).1
    have h2 := ((hG j).1 hj).1
    rw [List.getD_eq_getElem?_getD, List.getElem?_eq_getElem h1, List.getD_eq_getElem?_getD,
      List.getElem?_eq_getElem h2] at e
    exact (List.Nodup.getElem_inj_iff hL).1 e
  have hset : {r ∈ S | typeB t r = true} = (((s.2.1.filter (kindB K t)).map (fun i => L.getD i M3.one)).toFinset : Set M3) := by
    ext r
    simp only [Set.mem_ofPred_eq, List.coe_toFinset, List.mem_map, List.mem_filter]
    constructor
    · rintro ⟨h1, h2⟩
      obtain ⟨i, hi, rfl⟩ := List.mem_iff_getElem.1 (hsub r h1)
      have e : L.getD i M3.one = L[i] := by
        rw [List.getD_eq_getElem?_getD, List.getElem?_eq_getElem hi]; rfl
      refine ⟨i, ⟨(hG i).2 ⟨hi, e ▸ h1⟩, ?_⟩, e⟩
      rw [(ht i hi).1 t (allTypes_mem t), e]; exact h2
    · rintro ⟨i, ⟨h1, h2⟩, rfl⟩
      obtain ⟨hi, h3⟩ := (hG i).1 h1
      exact ⟨h3, by rw [← (ht i hi).1 t (allTypes_mem t)]; exact h2⟩
  rw [hset, Set.ncard_coe_finset, List.toFinset_card_of_nodup, List.length_map]
  refine (List.nodup_map_iff_inj_on (hnd.filter _)).2 ?_
  intro i hi j hj e
  exact inj i (List.mem_filter.1 hi).1 j (List.mem_filter.1 hj).1 e

set_option maxRecDepth 100000 in
theorem cubic_tables : tableCheck cubicExplicit cubicTable cubicKinds = true := by decide +kernel

set_option maxRecDepth 100000 in
theorem hex_tables : tableCheck hexExplicit hexTable hexKinds = true := by decide +kernel

set_option maxRecDepth 100000 in
theorem cubic_classes : cubicSubs.all (fun s => decide s.2.1.Nodup && classCheck cubicKinds s) = true := by decide +kernel

set_option maxRecDepth 100000 in
theorem hex_classes : hexSubs.all (fun s => decide s.2.1.Nodup && classCheck hexKinds s) = true := by decide +kernel

theorem class_of_cubic {S : Set M3} (hone : M3.one ∈ S) (hmul : ∀ a ∈ S, ∀ b ∈ S, a.mul b ∈ S)
    (hsub : ∀ a ∈ S, a.Cubic) : ∃ c ∈ crystalClasses, ∀ t, {r ∈ S | typeB t r = true}.ncard = c.2.get t :=
  class_of_closed (L := cubicExplicit) (id := 0) (by decide +kernel) cubic_tables ⟨by decide +kernel, by decide +kernel⟩
    (show cubicSubs.map (·.1) = cubicMasks by decide +kernel) (by decide +kernel) cubic_subs cubic_classes hone hmul
    (fun a ha => cubic_mem_explicit (hsub a ha))

theorem class_of_hexagonal {S : Set M3} (hone : M3.one ∈ S) (hmul : ∀ a ∈ S, ∀ b ∈ S, a.mul b ∈ S)
    (hsub : ∀ a ∈ S, a.Hexagonal) : ∃ c ∈ crystalClasses, ∀ t, {r ∈ S | typeB t r = true}.ncard = c.2.get t :=
  class_of_closed (L := hexExplicit) (id := 20) (by decide +kernel) hex_tables ⟨by decide +kernel, by decide +kernel⟩
    (show hexSubs.map (·.1) = hexMasks by decide +kernel) (by decide +kernel) hex_subs hex_classes hone hmul
    (fun a ha => hex_mem_explicit (hsub a ha))

end Verif.Subs
