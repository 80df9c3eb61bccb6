import Verif.Props.Classification

/-! # The proper part of an operation (C85) -/

namespace Verif

/-- Specification: the vectors a proper rotation leaves alone. -/
def M3.Fixes (r : M3) (v : V3) : Prop := r.mulVec v = v

/-- C85. For a rotation part of finite order: `proper_rotation` is absent exactly for the identity and the inversion;
otherwise it is the rotation part or, for an improper one, minus the rotation part, has determinant 1 and exact order
`equiv_num`, and leaves a vector alone exactly when the operation maps it to plus or minus itself according to its
determinant (the axis of `eigenvector`). -/
theorem proper_rotation_meaning (m : M4) (h : m.Affine) (hf : m.rotationPart.FiniteOrder) :
    (m.properRotation = none ↔ m.rotationPart = M3.one ∨ m.rotationPart = M3.one.neg) ∧
    ∀ p, m.properRotation = some p →
      p.det = 1 ∧ (p = m.rotationPart ∧ m.rotationPart.det = 1 ∨ p = m.rotationPart.neg ∧ m.rotationPart.det = -1) ∧
      (∃ n, m.equivNum = .ok n ∧ p.HasOrder n ∧ 1 < n) ∧
      ∀ v : V3, p.Fixes v ↔ m.rotationPart.mulVec v = ⟨m.rotationPart.det * v.x, m.rotationPart.det * v.y, m.rotationPart.det * v.z⟩ := by
  obtain ⟨t, n, ht, hn, hc⟩ := rotation_type_correct m h hf
  have hn' : M4.typeOrder t = n := by
    unfold M4.equivNum at hn
    rw [ht] at hn
    exact Except.ok.inj hn
  simp only [M4.rotationPart] at *
  have one_iff : ∀ r : M3, r.HasOrder 1 → r = M3.one := by
    intro r hr
    have := hr.2.1
    have e : r.pow 1 = r := by ext <;> simp [M3.pow, M3.mul]
    rwa [e] at this
  have uniq : ∀ (r : M3) (a : Nat), r.HasOrder a → r = M3.one → a = 1 := by
    rintro r a ⟨h1, h2, h3⟩ rfl
    by_contra hne
    exact h3 1 (by decide) (by omega) (by decide)
  have negneg : m.rot.neg.neg = m.rot := by ext <;> simp [M3.neg]
  have d1 : m.rot.det = 1 → m.rot.map (fun v => v * m.rot.det) = m.rot := by
    intro e; rw [e]; ext <;> simp [M3.map]
  have d2 : m.rot.det = -1 → m.rot.map (fun v => v * m.rot.det) = m.rot.neg := by
    intro e; rw [e]; ext <;> simp [M3.map, M3.neg]
  have onedet : M3.one.det = 1 := by decide
  have negdet : M3.one.neg.det = -1 := by decide
  constructor
  · constructor
    · intro hp
      unfold M4.properRotation at hp
      rw [ht] at hp
      cases t <;> first | (cases hp; done) | skip
      · rcases hc with ⟨hi, hd, ho⟩ | ⟨hi, hd, ho⟩
        · left; subst hn'; exact one_iff _ ho
        · cases hi
      · rcases hc with ⟨hi, hd, ho⟩ | ⟨hi, hd, ho⟩
        · cases hi
        · right; subst hn'; rw [← negneg, one_iff _ ho]
    · rintro (e | e)
      · rcases hc with ⟨hi, hd, ho⟩ | ⟨hi, hd, ho⟩
        · have := uniq _ _ ho e
          rw [this] at hn'
          unfold M4.properRotation
          rw [ht]
          cases t <;> first | rfl | (exact absurd hn' (by decide)) | cases hi
        · rw [e, onedet] at hd; omega
      · rcases hc with ⟨hi, hd, ho⟩ | ⟨hi, hd, ho⟩
        · rw [e, negdet] at hd; omega
        · have := uniq _ _ ho (by rw [e]; decide)
          rw [this] at hn'
          unfold M4.properRotation
          rw [ht]
          cases t <;> first | rfl | (exact absurd hn' (by decide)) | cases hi
  · intro p hp
    have hp' : p = m.rot.map (fun v => v * m.rot.det) ∧ t ≠ .E ∧ t ≠ .I := by
      unfold M4.properRotation at hp
      rw [ht] at hp
      cases t <;> first | (cases hp; done) | (exact ⟨(Option.some.inj hp).symm, by decide, by decide⟩)
    obtain ⟨rfl, hE, hI⟩ := hp'
    have hgt : 1 < n := by rw [← hn']; cases t <;> first | (exact absurd rfl hE) | (exact absurd rfl hI) | decide
    rcases hc with ⟨hi, hd, ho⟩ | ⟨hi, hd, ho⟩
    · rw [d1 hd]
      refine ⟨hd, .inl ⟨rfl, hd⟩, ⟨n, hn, ho, hgt⟩, fun v => ?_⟩
      rw [hd]; simp [M3.Fixes]
    · rw [d2 hd]
      refine ⟨by rw [M3.neg_det, hd]; rfl, .inr ⟨rfl, hd⟩, ⟨n, hn, ho, hgt⟩, fun v => ?_⟩
      rw [hd]
      simp only [M3.Fixes, M3.mulVec, M3.neg]
      constructor
      · intro e
        have e1 := congrArg V3.x e
        have e2 := congrArg V3.y e
        have e3 := congrArg V3.z e
        simp only at e1 e2 e3
        ext <;> simp only <;> linarith
      · intro e
        have e1 := congrArg V3.x e
        have e2 := congrArg V3.y e
        have e3 := congrArg V3.z e
        simp only at e1 e2 e3
        ext <;> simp only <;> linarith

/-- A mirror has a twofold proper part; the inversion has none. -/
example : M4.properRotation ⟨⟨1, 0, 0, 0, 1, 0, 0, 0, -1⟩, ⟨0, 0, 6⟩, V3.zero, 1⟩ = some ⟨-1, 0, 0, 0, -1, 0, 0, 0, 1⟩ ∧
    M3.FiniteOrder ⟨1, 0, 0, 0, 1, 0, 0, 0, -1⟩ ∧ M4.inversion.properRotation = none :=
  ⟨by decide, ⟨2, by decide, by decide⟩, by decide⟩

end Verif
