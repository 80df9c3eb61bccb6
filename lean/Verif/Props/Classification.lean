import Verif.Proofs.Restriction
import Verif.Proofs.Holohedry
import Verif.Props.Contracts

/-!
# Classification of rotations (C09, C10, C11)
-/

namespace Verif

theorem M4.trace_affine {m : M4} (h : m.Affine) : m.trace = m.rot.trace := by
  simp [M4.trace, h.2]

/-- C10. `rotation_type` only looks at the rotation part. -/
theorem rotation_type_ignores_translation (m m' : M4) (h : m.Affine) (h' : m'.Affine)
    (hr : m.rotationPart = m'.rotationPart) : m.rotationType = m'.rotationType ∧ m.equivNum = m'.equivNum := by
  have e : m.rotationType = m'.rotationType := by
    unfold M4.rotationType
    rw [M4.trace_affine h, M4.trace_affine h', M4.det, M4.det]
    simp only [M4.rotationPart] at hr
    rw [hr]
  exact ⟨e, by unfold M4.equivNum; rw [e]⟩

/-- `rotation_type` as a look-up of the pair (determinant, trace). -/
theorem M4.rotationType_eq (m : M4) (h : m.Affine) :
    m.rotationType = (match m.rot.det, m.rot.trace with
      | -1, -3 => some .I
      | -1, -2 => some .M6
      | -1, -1 => some .M4
      | -1, 0 => some .M3
      | -1, 1 => some .M
      | 1, -1 => some .N2
      | 1, 0 => some .N3
      | 1, 1 => some .N4
      | 1, 2 => some .N6
      | 1, 3 => some .E
      | _, _ => none) := by
  rw [← M4.trace_affine h]; rfl

/-- C10. `rotation_type` fails exactly when (determinant, trace) is not one of the ten crystallographic pairs. -/
theorem rotation_type_error_iff (m : M4) (h : m.Affine) :
    m.rotationType = none ↔ (m.rot.det, m.rot.trace) ∉ crystallographicPairs := by
  rw [M4.rotationType_eq m h]
  generalize m.rot.det = d
  generalize m.rot.trace = t
  split <;> simp_all [crystallographicPairs]

/-- C10. In particular it fails for every singular matrix. -/
theorem rotation_type_singular (m : M4) (h : m.Affine) (hs : m.rot.det = 0) : m.rotationType = none := by
  rw [rotation_type_error_iff m h, hs]
  simp [crystallographicPairs]

example : M4.rotationType ⟨⟨1, 0, 0, 0, 2, 0, 0, 0, 1⟩, ⟨0, 0, 0⟩, ⟨0, 0, 0⟩, 1⟩ = none ∧
    M4.rotationType ⟨⟨1, 2, 3, 2, 4, 6, 0, 0, 1⟩, ⟨5, 0, 0⟩, ⟨0, 0, 0⟩, 1⟩ = none ∧
    sampleA.rotationType = some .N4 ∧ sampleA.Affine := by
  refine ⟨by decide +kernel, by decide +kernel, by decide +kernel, ⟨rfl, rfl⟩⟩

theorem M3.neg_mul_neg (a b : M3) : a.neg.mul b.neg = a.mul b := by
  ext <;> simp only [M3.mul, M3.neg] <;> ring

theorem M3.neg_pow_two_mul (a : M3) (k : Nat) : a.neg.pow (2 * k) = a.pow (2 * k) := by
  rw [M3.pow_mul, M3.pow_mul, M3.pow_two', M3.pow_two', M3.neg_mul_neg]

theorem M3.neg_det (a : M3) : a.neg.det = -a.det := by simp only [M3.det, M3.neg]; ring
theorem M3.neg_trace (a : M3) : a.neg.trace = -a.trace := by simp only [M3.trace, M3.neg]; ring

/-- C09. For a rotation part of finite multiplicative order: the determinant is 1 or -1, `rotation_type` succeeds, the
type is improper exactly when the determinant is -1, and `equiv_num` is the exact order of the rotation part (of minus
the rotation part when improper). -/
theorem rotation_type_correct (m : M4) (h : m.Affine) (hf : m.rotationPart.FiniteOrder) :
    ∃ t n, m.rotationType = some t ∧ m.equivNum = .ok n ∧
      ((t.improper = false ∧ m.rotationPart.det = 1 ∧ m.rotationPart.HasOrder n) ∨
       (t.improper = true ∧ m.rotationPart.det = -1 ∧ m.rotationPart.neg.HasOrder n)) := by
  obtain ⟨k, hk, hp⟩ := hf
  simp only [M4.rotationPart] at hp ⊢
  have hdet : m.rot.det ^ k = 1 := by rw [← M3.det_pow, hp]; exact M3.det_one
  have hd : m.rot.det = 1 ∨ m.rot.det = -1 := by
    have : IsUnit m.rot.det := by
      apply IsUnit.of_mul_eq_one (m.rot.det ^ (k - 1))
      rw [← pow_succ', Nat.sub_add_cancel hk, hdet]
    exact Int.isUnit_iff.1 this
  unfold M4.equivNum
  rw [M4.rotationType_eq m h]
  rcases hd with hd | hd
  · rcases M3.order_of_trace hk hp hd with ⟨t, o⟩ | ⟨t, o⟩ | ⟨t, o⟩ | ⟨t, o⟩ | ⟨t, o⟩ <;>
      rw [hd, t] <;> exact ⟨_, _, rfl, rfl, .inl ⟨rfl, rfl, o⟩⟩
  · have hk2 : 0 < 2 * k := by omega
    have hp2 : m.rot.neg.pow (2 * k) = M3.one := by
      rw [M3.neg_pow_two_mul, Nat.mul_comm, M3.pow_mul, hp, M3.one_pow]
    have hd2 : m.rot.neg.det = 1 := by rw [M3.neg_det, hd]; rfl
    rcases M3.order_of_trace hk2 hp2 hd2 with ⟨t, o⟩ | ⟨t, o⟩ | ⟨t, o⟩ | ⟨t, o⟩ | ⟨t, o⟩ <;>
      (rw [M3.neg_trace] at t
       first
       | rw [hd, show m.rot.trace = -3 by omega]; exact ⟨_, _, rfl, rfl, .inr ⟨rfl, rfl, o⟩⟩
       | rw [hd, show m.rot.trace = 1 by omega]; exact ⟨_, _, rfl, rfl, .inr ⟨rfl, rfl, o⟩⟩
       | rw [hd, show m.rot.trace = 0 by omega]; exact ⟨_, _, rfl, rfl, .inr ⟨rfl, rfl, o⟩⟩
       | rw [hd, show m.rot.trace = -1 by omega]; exact ⟨_, _, rfl, rfl, .inr ⟨rfl, rfl, o⟩⟩
       | rw [hd, show m.rot.trace = -2 by omega]; exact ⟨_, _, rfl, rfl, .inr ⟨rfl, rfl, o⟩⟩)

/-- C09. `equiv_num` therefore never panics on a finite-order operation, and never depends on anything but the type. -/
theorem equiv_num_total (m : M4) (h : m.Affine) (hf : m.rotationPart.FiniteOrder) :
    ∃ n ∈ [1, 2, 3, 4, 6], m.equivNum = .ok n := by
  obtain ⟨t, n, ht, hn, _⟩ := rotation_type_correct m h hf
  refine ⟨n, ?_, hn⟩
  unfold M4.equivNum at hn
  rw [ht] at hn
  simp only [Except.ok.injEq] at hn
  rw [← hn]
  cases t <;> decide

-- a skew matrix of order 6 that is not in any standard setting, and an improper one
example : M3.FiniteOrder ⟨3, 7, 0, -1, -2, 0, 0, 0, 1⟩ := ⟨6, by decide, by decide +kernel⟩
example : M3.FiniteOrder ⟨1, 5, 0, 0, -1, 0, 0, 0, 1⟩ ∧
    M4.equivNum ⟨⟨1, 5, 0, 0, -1, 0, 0, 0, 1⟩, ⟨1, 2, 3⟩, ⟨0, 0, 0⟩, 1⟩ = .ok 2 :=
  ⟨⟨2, by decide, by decide +kernel⟩, by rfl⟩

/-- Without finite order the number returned need not be an order: this shear has (determinant, trace) of a rotation and
`equiv_num` 1, but no power of it is the identity. -/
theorem equiv_num_of_shear :
    M4.equivNum ⟨⟨1, 1, 0, 0, 1, 0, 0, 0, 1⟩, ⟨0, 0, 0⟩, ⟨0, 0, 0⟩, 1⟩ = .ok 1 ∧
    ∀ k, 0 < k → M3.pow ⟨1, 1, 0, 0, 1, 0, 0, 0, 1⟩ k ≠ M3.one := by
  refine ⟨by rfl, fun k hk h => ?_⟩
  have : ∀ n : Nat, M3.pow ⟨1, 1, 0, 0, 1, 0, 0, 0, 1⟩ n = ⟨1, n, 0, 0, 1, 0, 0, 0, 1⟩ := by
    intro n
    induction n with
    | zero => rfl
    | succ n ih => rw [M3.pow, ih]; ext <;> simp [M3.mul] <;> omega
  rw [this k] at h
  have := congrArg M3.m12 h
  simp [M3.one] at this
  omega

/-! ## Eigenvectors -/

/-- What `eigenvector` should return: a non-zero vector that the proper part of the rotation leaves invariant
(`R v = det(R) v`), in the half space `z > 0`, or `z = 0, y > 0`, or `z = y = 0, x > 0`. -/
def M3.IsAxis (r : M3) (v : V3) : Prop :=
  r.mulVec v = ⟨r.det * v.x, r.det * v.y, r.det * v.z⟩ ∧
    (0 < v.z ∨ v.z = 0 ∧ 0 < v.y ∨ v.z = 0 ∧ v.y = 0 ∧ 0 < v.x)

theorem eigenFilter_iff (v : V3) : M4.eigenFilter v = true ↔
    (0 < v.z ∨ v.z = 0 ∧ 0 < v.y ∨ v.z = 0 ∧ v.y = 0 ∧ 0 < v.x) := by
  unfold M4.eigenFilter
  split
  · simp; omega
  · split
    · split
      · simp; omega
      · split <;> simp <;> omega
    · simp; omega

theorem mem_eigenCandidates (v : V3) : v ∈ M4.eigenCandidates ↔
    (v.x = 1 ∨ v.x = 0 ∨ v.x = -1) ∧ (v.y = 1 ∨ v.y = 0 ∨ v.y = -1) ∧ (v.z = 1 ∨ v.z = 0 ∨ v.z = -1) := by
  simp only [M4.eigenCandidates, List.mem_flatMap, List.mem_map, List.mem_cons, List.not_mem_nil, or_false]
  constructor
  · rintro ⟨i, hi, j, hj, k, hk, rfl⟩; exact ⟨hi, hj, hk⟩
  · rintro ⟨hi, hj, hk⟩; exact ⟨v.x, hi, v.y, hj, v.z, hk, rfl⟩

theorem sub_det_mulVec (r : M3) (d : Int) (v : V3) :
    (r.sub (M3.one.map (fun x => x * d))).mulVec v = V3.zero ↔ r.mulVec v = ⟨d * v.x, d * v.y, d * v.z⟩ := by
  simp only [M3.sub, M3.map, M3.one, M3.mulVec, V3.zero, V3.mk.injEq]
  constructor <;> rintro ⟨h1, h2, h3⟩ <;> refine ⟨?_, ?_, ?_⟩ <;> linarith

theorem isAxis_ne_zero {r : M3} {v : V3} (h : r.IsAxis v) : v ≠ V3.zero := by
  rintro rfl
  have := h.2
  simp at this

/-- C11. Whatever `eigenvector` returns is an axis in the sense above, with components in -1..1; and it panics exactly
when there is no such vector with components in -1..1. Holds for every matrix. -/
theorem eigenvector_spec (m : M4) :
    (∀ v, m.eigenvector = .ok v → m.rotationPart.IsAxis v) ∧
    (m.eigenvector = .error .noEigenvector ↔
      ¬ ∃ v, m.rotationPart.IsAxis v ∧ -1 ≤ v.x ∧ v.x ≤ 1 ∧ -1 ≤ v.y ∧ v.y ≤ 1 ∧ -1 ≤ v.z ∧ v.z ≤ 1) := by
  let L := List.filter M4.eigenFilter (List.filter
    (fun v => decide ((m.rot.sub (M3.one.map (fun v => v * m.rot.det))).mulVec v = V3.zero) && decide (v ≠ V3.zero))
    M4.eigenCandidates)
  have hdef : m.eigenvector = match L.head? with
      | some v => .ok v
      | none => .error .noEigenvector := rfl
  rw [hdef]
  have hmem : ∀ v, v ∈ L ↔ m.rot.IsAxis v ∧ v ∈ M4.eigenCandidates := by
    intro v
    simp only [L, List.mem_filter, Bool.and_eq_true, decide_eq_true_eq, sub_det_mulVec, eigenFilter_iff, M3.IsAxis]
    constructor
    · rintro ⟨⟨h1, h2, h3⟩, h4⟩; exact ⟨⟨h2, h4⟩, h1⟩
    · rintro ⟨⟨h2, h4⟩, h1⟩; exact ⟨⟨h1, h2, isAxis_ne_zero (r := m.rot) ⟨h2, h4⟩⟩, h4⟩
  constructor
  · intro v hv
    cases hh : L.head? with
    | none => rw [hh] at hv; simp at hv
    | some w =>
      rw [hh] at hv
      simp only [Except.ok.injEq] at hv
      subst hv
      exact ((hmem _).1 (List.mem_of_mem_head? hh)).1
  · constructor
    · intro h
      rintro ⟨v, hv, h1⟩
      have hm : v ∈ L := (hmem v).2 ⟨hv, (mem_eigenCandidates v).2 ⟨by omega, by omega, by omega⟩⟩
      cases hh : L.head? with
      | none => rw [List.head?_eq_none_iff] at hh; rw [hh] at hm; simp at hm
      | some w => rw [hh] at h; simp at h
    · intro h
      cases hh : L.head? with
      | none => rfl
      | some w =>
        exfalso
        apply h
        obtain ⟨h1, h2⟩ := (hmem w).1 (List.mem_of_mem_head? hh)
        have := (mem_eigenCandidates w).1 h2
        exact ⟨w, h1, by omega, by omega, by omega, by omega, by omega, by omega⟩

instance (e : Except Panic V3) : Decidable (∃ v, e = .ok v) :=
  match e with
  | .ok v => isTrue ⟨v, rfl⟩
  | .error _ => isFalse (by rintro ⟨v, h⟩; cases h)

/-- C11, the part that holds: for every operation of the cubic holohedry (hence of all cubic, tetragonal,
orthorhombic, monoclinic and triclinic groups in standard axes) `eigenvector` returns, whatever the translation.
Missing: hexagonal operations with axis [210] or [120], where it panics (`eigenvector_panics_hexagonal`). -/
theorem eigenvector_cubic_partial (m : M4) (h : m.rotationPart.Cubic) :
    ∃ v, m.eigenvector = .ok v ∧ m.rotationPart.IsAxis v := by
  have key : ∀ r ∈ cubicList, ∃ v, M4.eigenvector ⟨r, V3.zero, V3.zero, 1⟩ = .ok v := by decide +kernel
  obtain ⟨v, hv⟩ := key _ ((cubic_iff_mem _).1 h)
  exact ⟨v, hv, (eigenvector_spec m).1 v hv⟩

/-- C11 is false for hexagonal operations: exactly four operations of the hexagonal holohedry, those whose axis is one
of the [210]-type directions make `eigenvector` panic although the axis exists; one of them is `x,x-y,-z`. -/
theorem eigenvector_panics_hexagonal :
    (M4.eigenvector ⟨⟨1, 0, 0, 1, -1, 0, 0, 0, -1⟩, ⟨0, 0, 0⟩, ⟨0, 0, 0⟩, 1⟩ = .error .noEigenvector ∧
      M3.Hexagonal ⟨1, 0, 0, 1, -1, 0, 0, 0, -1⟩ ∧ M3.IsAxis ⟨1, 0, 0, 1, -1, 0, 0, 0, -1⟩ ⟨2, 1, 0⟩) ∧
    (hexList.filter (fun r => ! decide (∃ v, M4.eigenvector ⟨r, V3.zero, V3.zero, 1⟩ = .ok v))).length = 4 := by
  refine ⟨⟨by decide +kernel, by decide +kernel, by decide +kernel, by decide⟩, by decide +kernel⟩

example : M3.Cubic ⟨0, -1, 0, 0, 0, 1, -1, 0, 0⟩ ∧
    M4.eigenvector ⟨⟨0, -1, 0, 0, 0, 1, -1, 0, 0⟩, ⟨1, 2, 3⟩, ⟨0, 0, 0⟩, 1⟩ = .ok ⟨-1, 1, 1⟩ := by
  decide +kernel

end Verif
