import Verif.Proofs.GroupAct
import Verif.Proofs.Restriction

/-! # Iterating an operation -/

namespace Verif

/-- The zero matrix. -/
def M3.zero : M3 := ⟨0, 0, 0, 0, 0, 0, 0, 0, 0⟩

theorem M3.zero_mulVec (v : V3) : M3.zero.mulVec v = V3.zero := by
  ext <;> simp [M3.zero, M3.mulVec, V3.zero]

namespace HM

/-- `1 + r + … + r^(k-1)`. -/
def nsum (r : M3) : Nat → M3
  | 0 => M3.zero
  | k + 1 => (r.mul (nsum r k)).add M3.one

theorem M3_add_mulVec (a b : M3) (v : V3) : (a.add b).mulVec v = (a.mulVec v).add (b.mulVec v) := by
  ext <;> simp only [M3.add, M3.mulVec, V3.add] <;> ring

theorem act_iterate (m : M4) (k : Nat) (p : Pt) :
    m.act^[k] p = M4.act ⟨m.rot.pow k, (nsum m.rot k).mulVec m.tr, V3.zero, 1⟩ p := by
  induction k with
  | zero =>
    have := congrFun (M4.act_mk_one ((nsum m.rot 0).mulVec m.tr) V3.zero 1 (M3.zero_mulVec _)) p
    exact this.symm
  | succ k ih =>
    rw [Function.iterate_succ_apply', ih, M4.act_act]
    refine M4.act_congr_rot_tr ?_ ?_ p
    · change m.rot.mul (m.rot.pow k) = m.rot.pow (k + 1)
      rw [Nat.add_comm, M3.pow_add, M3.pow_one']
    · change (m.rot.mulVec ((nsum m.rot k).mulVec m.tr)).add m.tr = ((m.rot.mul (nsum m.rot k)).add M3.one).mulVec m.tr
      rw [M3_add_mulVec, M3.one_mulVec, M3.mulVec_mulVec]

end HM

end Verif
