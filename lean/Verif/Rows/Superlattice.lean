import Verif.Rows.Arith
import Verif.Data.Superlattice

/-! # Every notation has a representative -/

namespace Verif.Arith
open Verif.Subs

set_option maxRecDepth 100000 in
theorem add2_check : addCheck 2 add2Table = true := by decide +kernel

set_option maxRecDepth 100000 in
theorem add3_check : addCheck 3 add3Table = true := by decide +kernel

set_option maxRecDepth 100000 in
theorem add2_subs : add2Subs.all (subCheck add2Table (2 * 2 * 2) 0 add2Masks) = true := by decide +kernel

set_option maxRecDepth 100000 in
theorem add3_subs : add3Subs.all (subCheck add3Table (3 * 3 * 3) 0 add3Masks) = true := by decide +kernel

set_option maxRecDepth 100000 in
theorem rises2 : allRises classes 2 add2Subs classes ups2 = true := by decide +kernel

set_option maxRecDepth 100000 in
theorem rises3 : allRises classes 3 add3Subs classes ups3 = true := by decide +kernel

/-- Every notation with positions has a representative. -/
theorem rep_of_fits {n : HallSymbolNotation} (h : (∀ r ∈ PointGroup n, r.Cubic) ∨ ∀ r ∈ PointGroup n, r.Hexagonal) :
    ∃ (j : Nat) (c : Cls) (i : Nat), classes[j]? = some c ∧ HasRep n c i := by
  have hcs : ∀ c ∈ classes, c.check = true := List.all_eq_true.1 classes_check
  obtain ⟨c, hc, S, L, k, hS, h1, h2⟩ : ∃ c ∈ classes, ∃ S' L', SameKind (SpaceGroup n) S' ∧ SpaceLike S' L' c.grp ∧
      (∀ t, Integral t → L' t) ∧ ∀ t, L' t → Integral (Pt.scale 12 t) := by
    rcases h with h | h
    · exact class_of_closed hcs (id := 0) cubic_tables ⟨by decide +kernel, by decide +kernel⟩
        (show cubicSubs.map (·.1) = cubicMasks by decide +kernel) (by decide +kernel) cubic_subs cubic_pairs
        (fun a ha => cubic_mem_explicit (h a ha))
    · exact class_of_closed hcs (id := 20) hex_tables ⟨by decide +kernel, by decide +kernel⟩
        (show hexSubs.map (·.1) = hexMasks by decide +kernel) (by decide +kernel) hex_subs hex_pairs
        (fun a ha => hex_mem_explicit (h a ha))
  have hm2 : add2Subs.map (·.1) = add2Masks := by decide +kernel
  have hm3 : add3Subs.map (·.1) = add3Masks := by decide +kernel
  obtain ⟨c1, hc1, S1, L1, k1, hS1, a1, b1⟩ := rise hcs (.inl rfl) add2_check hm2 (by decide +kernel) add2_subs rises2 hc (N := 6) hS h1
    (fun t ht => by have := h2 t ht; norm_num; exact this)
  obtain ⟨c2, hc2, S2, L2, k2, hS2, a2, b2⟩ := rise hcs (.inl rfl) add2_check hm2 (by decide +kernel) add2_subs rises2 hc1 (N := 3) hS1 a1
    (fun t ht => by have := b1 t ht; norm_num at this ⊢; exact this)
  obtain ⟨c3, hc3, S3, L3, k3, hS3, a3, b3⟩ := rise hcs (.inr rfl) add3_check hm3 (by decide +kernel) add3_subs rises3 hc2 (N := 1) hS2 a2
    (fun t ht => by have := b2 t ht; norm_num at this ⊢; exact this)
  obtain ⟨i, hi⟩ := hasRep_of_whole (hcs _ hc3) (((k.trans k1).trans k2).trans k3) hS3 a3 b3
  obtain ⟨j, hj⟩ := List.mem_iff_getElem?.1 hc3
  exact ⟨j, c3, i, hj, hi⟩

end Verif.Arith
