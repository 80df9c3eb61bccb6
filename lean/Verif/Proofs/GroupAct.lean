import Verif.Proofs.Lattice
import Verif.Spec.Group

/-! # Inverses of operations; elements of a space group as matrices -/

namespace Verif

/-- Determinant `+1` or `-1`. -/
def M3.Unimod (r : M3) : Prop := r.det = 1 ∨ r.det = -1

/-- The inverse of a unimodular matrix (determinant times adjugate). -/
def M3.uinv (r : M3) : M3 :=
  ⟨r.det * (r.m22 * r.m33 - r.m23 * r.m32), r.det * (r.m13 * r.m32 - r.m12 * r.m33), r.det * (r.m12 * r.m23 - r.m13 * r.m22),
   r.det * (r.m23 * r.m31 - r.m21 * r.m33), r.det * (r.m11 * r.m33 - r.m13 * r.m31), r.det * (r.m13 * r.m21 - r.m11 * r.m23),
   r.det * (r.m21 * r.m32 - r.m22 * r.m31), r.det * (r.m12 * r.m31 - r.m11 * r.m32), r.det * (r.m11 * r.m22 - r.m12 * r.m21)⟩

theorem M3.Unimod.sq {r : M3} (h : r.Unimod) : r.det * r.det = 1 := by
  rcases h with h | h <;> rw [h] <;> rfl

theorem M3.Unimod.mul {a b : M3} (ha : a.Unimod) (hb : b.Unimod) : (a.mul b).Unimod := by
  unfold M3.Unimod at *
  rw [M3.det_mul]
  rcases ha with h | h <;> rcases hb with h' | h' <;> rw [h, h'] <;> simp

theorem M3.mul_uinv {r : M3} (h : r.Unimod) : r.mul r.uinv = M3.one := by
  have hs := h.sq
  ext <;> simp only [M3.mul, M3.uinv, M3.one]
  all_goals first
    | (have e := hs; (conv at e => lhs; rhs; unfold M3.det); linear_combination e)
    | ring

theorem M3.uinv_mul {r : M3} (h : r.Unimod) : r.uinv.mul r = M3.one := by
  have hs := h.sq
  ext <;> simp only [M3.mul, M3.uinv, M3.one]
  all_goals first
    | (have e := hs; (conv at e => lhs; rhs; unfold M3.det); linear_combination e)
    | ring

theorem M3.Unimod.uinv {r : M3} (h : r.Unimod) : r.uinv.Unimod := by
  have e := congrArg M3.det (M3.mul_uinv h)
  rw [M3.det_mul] at e
  have e1 : M3.one.det = 1 := by decide
  rw [e1] at e
  unfold M3.Unimod
  rcases h with h' | h' <;> rw [h'] at e <;> omega

theorem M3.Unimod.one : M3.one.Unimod := .inl (by decide)

/-- Right cancellation. -/
theorem M3.mul_right_cancel {a b r : M3} (h : r.Unimod) (e : a.mul r = b.mul r) : a = b := by
  have := congrArg (fun x => M3.mul x r.uinv) e
  simpa only [M3.mul_assoc, M3.mul_uinv h, M3.mul_one] using this

theorem M3.mul_left_cancel {a b r : M3} (h : r.Unimod) (e : r.mul a = r.mul b) : a = b := by
  have := congrArg (fun x => M3.mul r.uinv x) e
  simpa only [← M3.mul_assoc, M3.uinv_mul h, M3.one_mul] using this

/-- The inverse operation (exact). -/
def M4.uinv (m : M4) : M4 := ⟨m.rot.uinv, (m.rot.uinv.mulVec m.tr).neg, V3.zero, 1⟩

theorem M4.act_mk_one (t b : V3) (w : Int) (h : t = V3.zero) : M4.act ⟨M3.one, t, b, w⟩ = id := by
  subst h
  funext p
  ext <;> simp [M4.act, M3.one]

theorem M4.act_comp (a b : M4) :
    a.act ∘ b.act = M4.act ⟨a.rot.mul b.rot, (a.rot.mulVec b.tr).add a.tr, V3.zero, 1⟩ := by
  funext p; exact M4.act_act a b p

theorem M4.act_uinv {m : M4} (h : m.rot.Unimod) : m.act ∘ m.uinv.act = id := by
  rw [M4.act_comp]
  simp only [M4.uinv, M3.mul_uinv h, M3.mulVec_neg, M3.mulVec_mulVec, M3.one_mulVec]
  exact M4.act_mk_one _ _ _ (V3.neg_add_self _)

theorem M4.uinv_act {m : M4} (h : m.rot.Unimod) : m.uinv.act ∘ m.act = id := by
  rw [M4.act_comp]
  simp only [M4.uinv, M3.uinv_mul h]
  exact M4.act_mk_one _ _ _ (V3.add_neg_self _)

/-- The action determines rotation and translation. -/
theorem M4.act_inj {a b : M4} (h : a.act = b.act) : a.rot = b.rot ∧ a.tr = b.tr := by
  have h0 := congrFun h ⟨0, 0, 0⟩
  have hx := congrFun h ⟨1, 0, 0⟩
  have hy := congrFun h ⟨0, 1, 0⟩
  have hz := congrFun h ⟨0, 0, 1⟩
  simp only [M4.act, Pt.mk.injEq, mul_zero, add_zero, zero_add, mul_one] at h0 hx hy hz
  obtain ⟨a1, a2, a3⟩ := h0
  obtain ⟨b1, b2, b3⟩ := hx
  obtain ⟨c1, c2, c3⟩ := hy
  obtain ⟨d1, d2, d3⟩ := hz
  constructor
  · ext <;> apply Int.cast_injective (α := ℚ) <;> linarith
  · ext <;> apply Int.cast_injective (α := ℚ) <;> linarith

/-! ## Translations as matrices -/

/-- The matrix of the translation by `v/12`. -/
def trMat (v : V3) : M4 := ⟨M3.one, v, V3.zero, 1⟩

theorem trMat_act (v : V3) : (trMat v).act = fun p => p.addTwelfths v := by
  funext p; ext <;> simp [trMat, M4.act, M3.one, Pt.addTwelfths]

theorem cell_act (k : V3) : (fun p : Pt => p.addCell k) = (trMat (V3.smul 12 k)).act := by
  funext p
  ext <;> simp [trMat, M4.act, M3.one, Pt.addCell]

theorem isLatticeTranslation_iff (l : LatticeSymbol) (v : V3) :
    IsLatticeTranslation l (trMat v).act ↔ LatCong l v V3.zero := by
  constructor
  · rintro ⟨w, hw, k, h⟩
    refine ⟨w, hw, ?_⟩
    have h0 := h ⟨0, 0, 0⟩
    simp only [trMat_act, Pt.addTwelfths, Pt.addCell, Pt.mk.injEq, zero_add] at h0
    obtain ⟨h1, h2, h3⟩ := h0
    have e1 : v.x = w.x + 12 * k.x := by
      apply Int.cast_injective (α := ℚ); push_cast; linarith
    have e2 : v.y = w.y + 12 * k.y := by
      apply Int.cast_injective (α := ℚ); push_cast; linarith
    have e3 : v.z = w.z + 12 * k.z := by
      apply Int.cast_injective (α := ℚ); push_cast; linarith
    rw [V3.zero_add]
    exact ⟨⟨k.x, by omega⟩, ⟨k.y, by omega⟩, ⟨k.z, by omega⟩⟩
  · rintro ⟨w, hw, h⟩
    rw [V3.zero_add] at h
    obtain ⟨⟨i, h1⟩, ⟨j, h2⟩, ⟨k, h3⟩⟩ := h
    refine ⟨w, hw, ⟨i, j, k⟩, fun p => ?_⟩
    have e1 : (v.x : ℚ) = w.x + 12 * i := by exact_mod_cast (by omega : v.x = w.x + 12 * i)
    have e2 : (v.y : ℚ) = w.y + 12 * j := by exact_mod_cast (by omega : v.y = w.y + 12 * j)
    have e3 : (v.z : ℚ) = w.z + 12 * k := by exact_mod_cast (by omega : v.z = w.z + 12 * k)
    ext <;> simp only [trMat_act, Pt.addTwelfths, Pt.addCell, e1, e2, e3] <;> ring

theorem IsLatticeTranslation.exists_vec {l : LatticeSymbol} {τ : Pt → Pt} (h : IsLatticeTranslation l τ) :
    ∃ v, τ = (trMat v).act ∧ LatCong l v V3.zero := by
  obtain ⟨w, hw, k, hp⟩ := h
  have e : τ = (trMat (w.add (V3.smul 12 k))).act := by
    funext p
    rw [hp]
    ext <;> simp [trMat, M4.act, M3.one, Pt.addCell, Pt.addTwelfths] <;> ring
  refine ⟨_, e, ?_⟩
  rw [← isLatticeTranslation_iff, ← e]
  exact ⟨w, hw, k, hp⟩

/-- Composition of a translation with an operation. -/
theorem trMat_comp (v : V3) (m : M4) : (trMat v).act ∘ m.act = M4.act ⟨m.rot, m.tr.add v, V3.zero, 1⟩ := by
  rw [M4.act_comp]
  simp only [trMat, M3.one_mul, M3.one_mulVec]

/-- Operations with the same rotation differ by a translation. -/
theorem act_comp_uinv_same_rot {a b : M4} (h : a.rot = b.rot) (hb : b.rot.Unimod) :
    a.act ∘ b.uinv.act = (trMat (a.tr.sub b.tr)).act := by
  rw [M4.act_comp]
  funext p
  apply M4.act_congr_rot_tr
  · simp only [M4.uinv, h, M3.mul_uinv hb, trMat]
  · simp only [M4.uinv, h, trMat, M3.mulVec_neg, M3.mulVec_mulVec, M3.mul_uinv hb, M3.one_mulVec]
    ext <;> simp <;> ring

/-- Two operations with the same rotation and lattice-congruent translations. -/
theorem eq_lattice_comp {l : LatticeSymbol} {a b : M4} (h : a.rot = b.rot) (ht : LatCong l a.tr b.tr) :
    ∃ τ, IsLatticeTranslation l τ ∧ a.act = τ ∘ b.act := by
  obtain ⟨w, hw, hc⟩ := ht
  refine ⟨(trMat (a.tr.sub b.tr)).act, ?_, ?_⟩
  · rw [isLatticeTranslation_iff]
    refine ⟨w, hw, ?_⟩
    obtain ⟨h1, h2, h3⟩ := hc
    simp only [V3.add_x, V3.add_y, V3.add_z] at h1 h2 h3
    refine ⟨?_, ?_, ?_⟩ <;> simp only [V3.add_x, V3.add_y, V3.add_z, V3.sub_x, V3.sub_y, V3.sub_z, V3.zero] <;> omega
  · rw [trMat_comp]
    funext p
    refine M4.act_congr_rot_tr (a := a) (b := ⟨b.rot, b.tr.add (a.tr.sub b.tr), V3.zero, 1⟩) h ?_ p
    ext <;> simp

theorem latCong_of_lattice_comp {l : LatticeSymbol} {a b : M4} {τ : Pt → Pt} (hτ : IsLatticeTranslation l τ)
    (h : a.act = τ ∘ b.act) : a.rot = b.rot ∧ LatCong l a.tr b.tr := by
  obtain ⟨v, rfl, hv⟩ := hτ.exists_vec
  rw [trMat_comp] at h
  obtain ⟨h1, h2⟩ := M4.act_inj h
  refine ⟨h1, ?_⟩
  obtain ⟨w, hw, hc⟩ := hv
  refine ⟨w, hw, ?_⟩
  rw [V3.zero_add] at hc
  simp only [] at h2
  rw [h2]
  exact (V3.Cong.refl _).add hc

/-! ## The space group -/

/-- The shifted generator, exactly. -/
theorem shifted_act (v : V3) (g : M4) :
    (fun p : Pt => (g.act (p.subTwelfths v)).addTwelfths v)
      = M4.act ⟨g.rot, (g.tr.sub (g.rot.mulVec v)).add v, V3.zero, 1⟩ := by
  funext p
  ext <;> simp only [M4.act, Pt.subTwelfths, Pt.addTwelfths, V3.sub, V3.add, M3.mulVec] <;> push_cast <;> ring

theorem inversion_act : (fun p : Pt => (⟨-p.x, -p.y, -p.z⟩ : Pt)) = M4.inversion.act := by
  funext p
  ext <;> simp [M4.act, M4.inversion, M3.one, M3.map, V3.zero]

end Verif
