import Mathlib.GroupTheory.Coset.Card
import Mathlib.Data.Set.Card
import Verif.Proofs.SpaceGroup
import Verif.Proofs.Success

/-! # Orders of subgroups of groups of rotations divide -/

namespace Verif

/-- 3x3 integer matrices as a monoid (used here only). -/
@[reducible] def M3.monoid : Monoid M3 where
  mul := M3.mul
  one := M3.one
  mul_assoc := M3.mul_assoc
  one_mul := M3.one_mul
  mul_one := M3.mul_one

/-- A finite set of invertible matrices with identity and products, as a subgroup of the units. -/
theorem ncard_dvd {S T : Set M3} (hS : FiniteRotations S) (hT : FiniteRotations T) (hu : ∀ r ∈ T, r.Unimod)
    (hST : S ⊆ T) : S.ncard ∣ T.ncard := by
  let _ : Monoid M3 := M3.monoid
  have hmul : ∀ a b : M3, a * b = a.mul b := fun _ _ => rfl
  have hone : (1 : M3) = M3.one := rfl
  have mk : ∀ U : Set M3, FiniteRotations U → (∀ r ∈ U, r.Unimod) →
      ∃ H : Subgroup M3ˣ, (∀ u : M3ˣ, u ∈ H ↔ (u : M3) ∈ U) ∧ Nat.card H = U.ncard := by
    intro U hU huU
    let H : Subgroup M3ˣ :=
      { carrier := {u | (u : M3) ∈ U}
        one_mem' := hU.one
        mul_mem' := fun {a b} ha hb => hU.mul _ ha _ hb
        inv_mem' := by
          intro a ha
          have ha' : (a : M3) ∈ U := ha
          have h1 := uinv_mem_of_finite hU.finite hU.mul hU.one ha' (huU _ ha')
          have h2 : ((a⁻¹ : M3ˣ) : M3) = (a : M3).uinv := by
            have h3 : (a : M3).mul ((a⁻¹ : M3ˣ) : M3) = M3.one := a.mul_inv
            exact M3.mul_left_cancel (huU _ ha') (h3.trans (M3.mul_uinv (huU _ ha')).symm)
          change ((a⁻¹ : M3ˣ) : M3) ∈ U
          rw [h2]; exact h1 }
    refine ⟨H, fun u => Iff.rfl, ?_⟩
    rw [← Nat.card_coe_set_eq]
    refine Nat.card_congr ⟨fun u => ⟨(u.1 : M3), u.2⟩, fun r =>
      ⟨⟨r.1, r.1.uinv, M3.mul_uinv (huU _ r.2), M3.uinv_mul (huU _ r.2)⟩, r.2⟩, ?_, ?_⟩
    · intro u; apply Subtype.ext; apply Units.ext; rfl
    · intro r; rfl
  obtain ⟨H, h1, h2⟩ := mk S hS (fun r hr => hu r (hST hr))
  obtain ⟨K, k1, k2⟩ := mk T hT hu
  rw [← h2, ← k2]
  exact Subgroup.card_dvd_of_le fun u hu => (k1 u).2 (hST ((h1 u).1 hu))

end Verif
