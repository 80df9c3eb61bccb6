import Verif.Proofs.Equivalence

/-! # `SameType` is an equivalence relation -/

namespace Verif

theorem changeOfBasis_inv (a : M3) (d : Nat) (q : Pt) (hd : 0 < d) (ha : 0 < a.det) :
    ∃ (b : M3) (e : Nat) (s : Pt), 0 < e ∧ 0 < b.det ∧ changeOfBasis a d q ∘ changeOfBasis b e s = id ∧
      changeOfBasis b e s ∘ changeOfBasis a d q = id := by
  obtain ⟨k, hk⟩ := Int.eq_ofNat_of_zero_le ha.le
  have hk0 : 0 < k := by omega
  have hd' : (d : ℚ) ≠ 0 := by exact_mod_cast hd.ne'
  have hk' : (k : ℚ) ≠ 0 := by exact_mod_cast hk0.ne'
  have hkq : (a.det : ℚ) = k := by exact_mod_cast hk
  obtain ⟨a11, a12, a13, a21, a22, a23, a31, a32, a33⟩ := a
  obtain ⟨q1, q2, q3⟩ := q
  simp only [M3.det] at hk hkq ha
  push_cast at hkq
  refine ⟨⟨d * (a22 * a33 - a23 * a32), d * (a13 * a32 - a12 * a33), d * (a12 * a23 - a13 * a22),
    d * (a23 * a31 - a21 * a33), d * (a11 * a33 - a13 * a31), d * (a13 * a21 - a11 * a23),
    d * (a21 * a32 - a22 * a31), d * (a12 * a31 - a11 * a32), d * (a11 * a22 - a12 * a21)⟩, k,
    ⟨-(d * (a22 * a33 - a23 * a32) * q1 + d * (a13 * a32 - a12 * a33) * q2 + d * (a12 * a23 - a13 * a22) * q3) / k,
     -(d * (a23 * a31 - a21 * a33) * q1 + d * (a11 * a33 - a13 * a31) * q2 + d * (a13 * a21 - a11 * a23) * q3) / k,
     -(d * (a21 * a32 - a22 * a31) * q1 + d * (a12 * a31 - a11 * a32) * q2 + d * (a11 * a22 - a12 * a21) * q3) / k⟩,
    hk0, ?_, ?_, ?_⟩
  · have : (M3.det ⟨d * (a22 * a33 - a23 * a32), d * (a13 * a32 - a12 * a33), d * (a12 * a23 - a13 * a22),
        d * (a23 * a31 - a21 * a33), d * (a11 * a33 - a13 * a31), d * (a13 * a21 - a11 * a23),
        d * (a21 * a32 - a22 * a31), d * (a12 * a31 - a11 * a32), d * (a11 * a22 - a12 * a21)⟩) =
        (d * d * d) * (k * k : Int) := by
      rw [← hk]; simp only [M3.det]; ring
    rw [this]
    positivity
  · funext p
    simp only [Function.comp_apply, changeOfBasis, id]
    push_cast
    ext <;> simp only [] <;> field_simp <;> rw [← hkq] <;> ring
  · funext p
    simp only [Function.comp_apply, changeOfBasis, id]
    push_cast
    ext <;> simp only [] <;> field_simp <;> rw [← hkq] <;> ring

theorem changeOfBasis_comp (a a' : M3) (d d' : Nat) (q q' : Pt) (hd : 0 < d) (hd' : 0 < d') :
    changeOfBasis a' d' q' ∘ changeOfBasis a d q = changeOfBasis (a'.mul a) (d' * d) (changeOfBasis a' d' q' q) := by
  have h1 : (d : ℚ) ≠ 0 := by exact_mod_cast hd.ne'
  have h2 : (d' : ℚ) ≠ 0 := by exact_mod_cast hd'.ne'
  funext p
  simp only [Function.comp_apply, changeOfBasis, M3.mul]
  push_cast
  ext <;> simp only [] <;> field_simp <;> ring

theorem SameType.refl (n : HallSymbolNotation) : SameType n n := by
  refine ⟨M3.one, 1, ⟨0, 0, 0⟩, by decide, by decide, ?_⟩
  intro f f' h
  have : changeOfBasis M3.one 1 ⟨0, 0, 0⟩ = id := by
    funext p; simp [changeOfBasis, M3.one]
  rw [this] at h
  have : f = f' := h
  rw [this]

theorem SameType.symm {n n' : HallSymbolNotation} (h : SameType n n') : SameType n' n := by
  obtain ⟨a, d, q, hd, ha, h⟩ := h
  obtain ⟨b, e, s, he, hb, h1, h2⟩ := changeOfBasis_inv a d q hd ha
  refine ⟨b, e, s, he, hb, fun f f' hf => ?_⟩
  refine (h f' f ?_).symm
  calc changeOfBasis a d q ∘ f' = changeOfBasis a d q ∘ f' ∘ (changeOfBasis b e s ∘ changeOfBasis a d q) := by rw [h2]; rfl
    _ = changeOfBasis a d q ∘ (f' ∘ changeOfBasis b e s) ∘ changeOfBasis a d q := rfl
    _ = (changeOfBasis a d q ∘ changeOfBasis b e s) ∘ f ∘ changeOfBasis a d q := by rw [← hf]; rfl
    _ = f ∘ changeOfBasis a d q := by rw [h1]; rfl

theorem SameType.trans {n n' n'' : HallSymbolNotation} (h : SameType n n') (h' : SameType n' n'') : SameType n n'' := by
  obtain ⟨a, d, q, hd, ha, h⟩ := h
  obtain ⟨a', d', q', hd', ha', h'⟩ := h'
  obtain ⟨b, e, s, he, hb, h1, h2⟩ := changeOfBasis_inv a d q hd ha
  have hdet : (a'.mul a).det = a'.det * a.det := by simp only [M3.det, M3.mul]; ring
  refine ⟨a'.mul a, d' * d, changeOfBasis a' d' q' q, Nat.mul_pos hd' hd, by rw [hdet]; exact Int.mul_pos ha' ha, fun f f'' hf => ?_⟩
  rw [← changeOfBasis_comp a a' d d' q q' hd hd'] at hf
  generalize changeOfBasis a d q = φ at *
  generalize changeOfBasis a' d' q' = φ' at *
  generalize changeOfBasis b e s = ψ at *
  have e1 : φ ∘ f = (φ ∘ f ∘ ψ) ∘ φ := by
    calc φ ∘ f = φ ∘ f ∘ (ψ ∘ φ) := by rw [h2]; rfl
      _ = (φ ∘ f ∘ ψ) ∘ φ := rfl
  have e2 : φ' ∘ (φ ∘ f ∘ ψ) = f'' ∘ φ' := by
    calc φ' ∘ (φ ∘ f ∘ ψ) = ((φ' ∘ φ) ∘ f) ∘ ψ := rfl
      _ = f'' ∘ φ' ∘ (φ ∘ ψ) := by rw [hf]; rfl
      _ = f'' ∘ φ' := by rw [h1]; rfl
  exact (h f _ e1).trans (h' _ f'' e2)

theorem SameUpToOrigin.sameType {n n' : HallSymbolNotation} (h : SameUpToOrigin n n') : SameType n n' := by
  obtain ⟨q, h⟩ := h
  refine ⟨M3.one, 1, q, by decide, by decide, fun f f' hf => ?_⟩
  rw [h f]
  have : movedBy q f = f' := by
    funext p
    have := congrFun hf ⟨p.x - q.x, p.y - q.y, p.z - q.z⟩
    simp only [Function.comp_apply, changeOfBasis, M3.one] at this
    simp only [movedBy]
    simp at this
    exact this
  rw [this]

end Verif
