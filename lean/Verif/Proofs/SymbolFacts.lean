import Verif.Proofs.GroupAct
import Verif.Model.Rotations
import Verif.Spec.Rotation

/-! # Facts about the operation of one matrix symbol -/

namespace Verif

theorem rotationMatrix_facts {f : NFold} {d : NFoldDiag} {a : RotationAxis} {m : M4}
    (h : rotationMatrix f d a = some m) : m.rot.det = 1 ∧ m.tr = V3.zero ∧ m.bot = V3.zero ∧ m.w = 1 := by
  cases f <;> cases d <;> cases a <;> first
    | (simp [rotationMatrix] at h; done)
    | (simp only [rotationMatrix, Option.some.injEq] at h; subst h; decide)

/-- The pieces of a successful `seitz_matrix`. -/
theorem seitzMatrix_some {s : MatrixSymbol} {g : M4} (h : s.seitzMatrix = some g) :
    ∃ r c, rotationMatrix s.nfoldBody s.nfoldDiag s.rotationAxis = some r ∧ setTransform s r = some c ∧
      g = (if s.minusSign then setInversion (setTranslationFromSymbols s c) else setTranslationFromSymbols s c) := by
  unfold MatrixSymbol.seitzMatrix at h
  cases hr : rotationMatrix s.nfoldBody s.nfoldDiag s.rotationAxis with
  | none => rw [hr] at h; simp at h
  | some r =>
    rw [hr] at h
    simp only [] at h
    cases hc : setTransform s r with
    | none => rw [hc] at h; simp at h
    | some c =>
      rw [hc] at h
      simp only [] at h
      refine ⟨r, c, rfl, hc, ?_⟩
      split at h
      · rename_i hm; rw [if_pos hm]; exact (Option.some.inj h).symm
      · rename_i hm; rw [if_neg hm]; exact (Option.some.inj h).symm

theorem setTransform_some {s : MatrixSymbol} {r c : M4} (h : setTransform s r = some c) :
    c = r ∨ ∃ t, c = { r with tr := t, w := 1 } := by
  unfold setTransform at h
  split at h
  · simp at h
  · left; exact (Option.some.inj h).symm
  · split at h
    · simp at h
    · right; exact ⟨_, (Option.some.inj h).symm⟩

theorem setTranslation_facts (s : MatrixSymbol) (c : M4) :
    (setTranslationFromSymbols s c).rot = c.rot ∧ (setTranslationFromSymbols s c).bot = c.bot ∧
      (setTranslationFromSymbols s c).w = c.w := by
  unfold setTranslationFromSymbols
  split <;> exact ⟨rfl, rfl, rfl⟩

theorem M3.det_neg (r : M3) : (r.map (fun v => -v)).det = - r.det := by
  simp only [M3.map, M3.det]; ring

theorem seitzMatrix_affine {s : MatrixSymbol} {g : M4} (h : s.seitzMatrix = some g) :
    g.Affine ∧ g.rot.det = if s.minusSign then -1 else 1 := by
  obtain ⟨r, c, hr, hc, hg⟩ := seitzMatrix_some h
  obtain ⟨h1, h2, h3, h4⟩ := rotationMatrix_facts hr
  have hc' : c.rot = r.rot ∧ c.bot = r.bot ∧ c.w = 1 := by
    rcases setTransform_some hc with rfl | ⟨t, rfl⟩
    · exact ⟨rfl, rfl, h4⟩
    · exact ⟨rfl, rfl, rfl⟩
  obtain ⟨e1, e2, e3⟩ := setTranslation_facts s c
  by_cases hm : s.minusSign
  · rw [if_pos hm] at hg ⊢
    subst hg
    refine ⟨⟨rfl, ?_⟩, ?_⟩
    · simp only [setInversion, e3, hc'.2.2]
    · simp only [setInversion, M3.det_neg, e1, hc'.1, h1]
  · rw [if_neg hm] at hg ⊢
    subst hg
    refine ⟨⟨?_, ?_⟩, ?_⟩
    · rw [e2, hc'.2.1, h3]; rfl
    · rw [e3, hc'.2.2]
    · rw [e1, hc'.1, h1]

theorem seitzMatrix_unimod {s : MatrixSymbol} {g : M4} (h : s.seitzMatrix = some g) : g.rot.Unimod := by
  have := (seitzMatrix_affine h).2
  unfold M3.Unimod
  split at this <;> simp [this]

/-! ## The shifted generator -/

theorem shiftedMatrix_facts (o : OriginShift) {g : M4} (hg : g.Affine) :
    (o.shiftedMatrix g).Affine ∧ (o.shiftedMatrix g).rot = g.rot ∧
      (o.shiftedMatrix g).tr = ((g.tr.sub (g.rot.mulVec o.vec)).add o.vec).map positiveMod := by
  obtain ⟨h1, h2⟩ := hg
  refine ⟨⟨?_, ?_⟩, ?_, ?_⟩
  · simp [OriginShift.shiftedMatrix, M4.mulRaw, h1, h2, M3.vecMul, V3.add, V3.smul, M3.one, V3.zero]
  · simp [OriginShift.shiftedMatrix, M4.mulRaw, h1, h2, V3.dot, V3.add, V3.smul, V3.zero, M3.vecMul]
    decide
  · ext <;> simp [OriginShift.shiftedMatrix, M4.mulRaw, M3.mul, M3.add, M3.outer, M3.one, h1, V3.zero]
  · ext <;> simp [OriginShift.shiftedMatrix, M4.mulRaw, M3.mul, M3.add, M3.outer, M3.one, h1, h2, V3.zero, M3.mulVec,
      V3.add, V3.smul, V3.map, V3.neg, V3.sub] <;> congr 1 <;> ring

theorem above_map_positiveMod (v : V3) : (v.map positiveMod).Above := by
  refine ⟨?_, ?_, ?_⟩ <;> simp only [V3.map] <;> have := positiveMod_range' v.x <;> have := positiveMod_range' v.y <;>
    have := positiveMod_range' v.z <;> omega

end Verif
