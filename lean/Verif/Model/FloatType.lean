import Verif.Model.Float

/-!
# `rotation_type` and its users with the determinant as the code computes it

The definitions of `Model/Seitz.lean` use the integer determinant. Here are the same functions with the `f64` determinant
of seitz_mat_impl.rs:141-143 (`M4.detF64`), cast and all; `Props/LargeEntries.lean` says where the two agree. Remaining
simplification: the additions and products of `i32` in `trace`, `eigenvector` and `proper_rotation` are unbounded.
-/

namespace Verif
namespace M4

/-- `rotation_type`, seitz_mat_impl.rs:110-126, on the `f64` determinant; `none` is `Err(NotRotationMatrix)`. -/
def rotationTypeF64 (m : M4) : Option RotationType :=
  match m.detF64, m.trace with
  | -1, -3 => some .I
  | -1, -2 => some .M6
  | -1, -1 => some .M4
  | -1, 0 => some .M3
  | -1, 1 => some .M
  | 1, -1 => some .N2
  | 1, 0 => some .N3
  | 1, 1 => some .N4
  | 1, 2 => some .N6
  | 1, 3 => some .E
  | _, _ => none

/-- `equiv_num`, seitz_mat_impl.rs:36-52, on the `f64` determinant. -/
def equivNumF64 (m : M4) : Except Panic Nat :=
  match m.rotationTypeF64 with
  | some t => .ok (typeOrder t)
  | none => .error .notRotation

/-- `proper_rotation`, seitz_mat_impl.rs:128-139, on the `f64` determinant. -/
def properRotationF64 (m : M4) : Option M3 :=
  match m.rotationTypeF64 with
  | some .E => none
  | some .I => none
  | some _ => some (m.rot.map (fun v => v * m.detF64))
  | none => none

/-- `eigenvector`, seitz_mat_impl.rs:68-109, on the `f64` determinant. -/
def eigenvectorF64 (m : M4) : Except Panic V3 :=
  let mI := m.rotationPart.sub (M3.one.map (fun v => v * m.detF64))
  let trials := eigenCandidates.filter
    (fun v => decide (mI.mulVec v = V3.zero) && decide (v ≠ V3.zero))
  match (trials.filter eigenFilter).head? with
  | some v => .ok v
  | none => .error .noEigenvector

end M4
end Verif
