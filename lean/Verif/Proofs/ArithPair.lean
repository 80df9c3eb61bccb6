import Verif.Proofs.ArithSound
import Verif.Proofs.SpaceGroup
import Verif.Proofs.Subgroups
import Verif.Proofs.Classes

/-! # From the rotations of a notation to a class -/

namespace Verif.Arith
open Verif.Subs

/-- How a subgroup (given by places in a list) is the group of a class: class, change of basis, and the elements that become
the generators. -/
structure Pair where
  cls : Nat
  a : M3
  r : Tri Nat

/-- The data are right. -/
def pairCheck (cs : List Cls) (L : List M3) (elems : List Nat) (p : Pair) : Bool :=
  match cs[p.cls]? with
  | none => false
  | some c =>
    decide (p.a.det = 1) && Nat.beq elems.length c.words.length &&
    elems.contains p.r.a && elems.contains p.r.b && elems.contains p.r.c &&
    (p.a.mul (L.getD p.r.a M3.one)).eqB (c.gens.a.mul p.a) && (p.a.mul (L.getD p.r.b M3.one)).eqB (c.gens.b.mul p.a) &&
    (p.a.mul (L.getD p.r.c M3.one)).eqB (c.gens.c.mul p.a)

/-- All entries of a table are right. -/
def pairsCheck (cs : List Cls) (L : List M3) : List (Nat × List Nat × List Nat × List Nat) → List Pair → Bool
  | [], _ => true
  | s :: ss, p :: ps => pairCheck cs L s.2.1 p && pairsCheck cs L ss ps
  | _ :: _, [] => false

theorem pairsCheck_mem {cs : List Cls} {L : List M3} {ss : List (Nat × List Nat × List Nat × List Nat)}
    {ps : List Pair} (h : pairsCheck cs L ss ps = true) {s : Nat × List Nat × List Nat × List Nat} (hs : s ∈ ss) :
    ∃ p, pairCheck cs L s.2.1 p = true := by
  induction ss generalizing ps with
  | nil => cases hs
  | cons t ss ih =>
    cases ps with
    | nil => simp [pairsCheck] at h
    | cons p ps =>
      simp only [pairsCheck, Bool.and_eq_true] at h
      rcases List.mem_cons.1 hs with rfl | hs
      · exact ⟨p, h.1⟩
      · exact ih h.2 hs

section lattice
variable {S : (Pt → Pt) → Prop} {L : Pt → Prop} {P : Set M3}

theorem lat_add (h : SpaceLike S L P) {s t : Pt} (hs : L s) (ht : L t) : L (s.plus t) := by
  have := h.comp _ _ ((h.lat s).2 hs) ((h.lat t).2 ht)
  rw [aff_one_comp] at this
  exact (h.lat _).1 this

theorem lat_neg (h : SpaceLike S L P) (h0 : L ⟨0, 0, 0⟩) {t : Pt} (ht : L t) : L (Pt.scale (-1) t) := by
  refine h.diff ((h.lat _).2 h0) ((h.lat _).2 ht) ?_
  simp only [Pt.plus, Pt.scale]
  ext <;> simp only [] <;> ring

theorem lat_zsmul (h : SpaceLike S L P) (h0 : L ⟨0, 0, 0⟩) {t : Pt} (ht : L t) (k : Int) : L (Pt.scale k t) := by
  have hnat : ∀ j : Nat, L (Pt.scale j t) := by
    intro j
    induction j with
    | zero =>
      have : Pt.scale ((0 : Nat) : ℚ) t = ⟨0, 0, 0⟩ := by simp [Pt.scale]
      rw [this]; exact h0
    | succ j ih =>
      have : Pt.scale ((j + 1 : Nat) : ℚ) t = (Pt.scale j t).plus t := by
        simp only [Pt.scale, Pt.plus]
        push_cast
        ext <;> simp only [] <;> ring
      rw [this]; exact lat_add h ih ht
  rcases Int.eq_nat_or_neg k with ⟨j, rfl | rfl⟩
  · exact_mod_cast hnat j
  · have : Pt.scale ((-(j : Int) : Int) : ℚ) t = Pt.scale (-1) (Pt.scale j t) := by
      simp only [Pt.scale]
      push_cast
      ext <;> simp only [] <;> ring
    rw [this]; exact lat_neg h h0 (hnat j)

end lattice

theorem onPt_inj {a : M3} (ha : 0 < a.det) {p q : Pt} (h : a.onPt p = a.onPt q) : p = q := by
  have hq : (a.det : ℚ) ≠ 0 := by exact_mod_cast ha.ne'
  obtain ⟨a11, a12, a13, a21, a22, a23, a31, a32, a33⟩ := a
  simp only [M3.onPt, Pt.mk.injEq] at h
  simp only [M3.det] at hq
  push_cast at hq
  obtain ⟨h1, h2, h3⟩ := h
  ext <;> apply mul_left_cancel₀ hq
  · linear_combination (a22 * a33 - a23 * a32 : ℚ) * h1 + (a13 * a32 - a12 * a33 : ℚ) * h2 + (a12 * a23 - a13 * a22 : ℚ) * h3
  · linear_combination (a23 * a31 - a21 * a33 : ℚ) * h1 + (a11 * a33 - a13 * a31 : ℚ) * h2 + (a13 * a21 - a11 * a23 : ℚ) * h3
  · linear_combination (a21 * a32 - a22 * a31 : ℚ) * h1 + (a12 * a31 - a11 * a32 : ℚ) * h2 + (a11 * a22 - a12 * a21 : ℚ) * h3

/-- The notation is, in other coordinates, a group over the class with the generators of its representative `i`. -/
def HasRep (n : HallSymbolNotation) (c : Cls) (i : Nat) : Prop :=
  ∃ u : Tri V3, c.reps[i]? = some u ∧ ∃ S', SameKind (SpaceGroup n) S' ∧ SpaceLike S' Integral c.grp ∧
    S' (aff c.gens.a (over c.m u.a)) ∧ S' (aff c.gens.b (over c.m u.b)) ∧ S' (aff c.gens.c (over c.m u.c))

/-- Notations with the same representative are of the same type. -/
theorem same_rep {n n' : HallSymbolNotation} {c : Cls} {i : Nat} (h : HasRep n c i) (h' : HasRep n' c i) : SameType n n' := by
  obtain ⟨u, hu, S, k, hS, a1, a2, a3⟩ := h
  obtain ⟨u', hu', S', k', hS', b1, b2, b3⟩ := h'
  rw [hu] at hu'
  obtain rfl := Option.some.inj hu'
  have e : SameKind S S' := sameKind_of_iff fun f =>
    ⟨determined hS hS' (v := ⟨_, _, _⟩) a1 a2 a3 b1 b2 b3, determined hS' hS (v := ⟨_, _, _⟩) b1 b2 b3 a1 a2 a3⟩
  exact (k.trans e).trans k'.symm

end Verif.Arith
