import Verif.Proofs.SameType

/-! # Groups of maps with a given lattice and given rotations -/

namespace Verif

/-- Sum of two points. -/
def Pt.plus (p q : Pt) : Pt := ⟨p.x + q.x, p.y + q.y, p.z + q.z⟩

/-- Multiple of a point. -/
def Pt.scale (k : ℚ) (p : Pt) : Pt := ⟨k * p.x, k * p.y, k * p.z⟩

/-- The matrix applied to a point. -/
def M3.onPt (r : M3) (p : Pt) : Pt :=
  ⟨r.m11 * p.x + r.m12 * p.y + r.m13 * p.z, r.m21 * p.x + r.m22 * p.y + r.m23 * p.z, r.m31 * p.x + r.m32 * p.y + r.m33 * p.z⟩

/-- The integer vector as a point. -/
def V3.whole (v : V3) : Pt := ⟨v.x, v.y, v.z⟩

/-- The map `p ↦ r p + t`. -/
def aff (r : M3) (t : Pt) : Pt → Pt := fun p => (r.onPt p).plus t

/-- Integer points. -/
def Integral (t : Pt) : Prop := ∃ k : V3, t = k.whole

theorem aff_comp (r r' : M3) (t t' : Pt) : aff r t ∘ aff r' t' = aff (r.mul r') ((r.onPt t').plus t) := by
  funext p
  simp only [Function.comp_apply, aff, M3.onPt, Pt.plus, M3.mul]
  push_cast
  ext <;> simp only [] <;> ring

theorem aff_inj {r r' : M3} {t t' : Pt} (h : aff r t = aff r' t') : r = r' ∧ t = t' := by
  have h0 := congrFun h ⟨0, 0, 0⟩
  have h1 := congrFun h ⟨1, 0, 0⟩
  have h2 := congrFun h ⟨0, 1, 0⟩
  have h3 := congrFun h ⟨0, 0, 1⟩
  simp only [aff, M3.onPt, Pt.plus, Pt.mk.injEq, mul_zero, mul_one, add_zero, zero_add] at h0 h1 h2 h3
  obtain ⟨a1, a2, a3⟩ := h0
  rw [a1, a2, a3] at h1 h2 h3
  simp only [add_left_inj, Int.cast_inj] at h1 h2 h3
  exact ⟨M3.ext h1.1 h2.1 h3.1 h1.2.1 h2.2.1 h3.2.1 h1.2.2 h2.2.2 h3.2.2, Pt.ext a1 a2 a3⟩

theorem M4.act_eq_aff (m : M4) : m.act = aff m.rot ⟨m.tr.x / 12, m.tr.y / 12, m.tr.z / 12⟩ := rfl

/-- A group of maps whose translations are the vectors of `L` and whose rotations are those of `P`. -/
structure SpaceLike (S : (Pt → Pt) → Prop) (L : Pt → Prop) (P : Set M3) : Prop where
  ops : ∀ f, S f → ∃ r ∈ P, ∃ t, f = aff r t
  all : ∀ r ∈ P, ∃ t, S (aff r t)
  comp : ∀ f g, S f → S g → S (f ∘ g)
  inv : ∀ f, S f → ∃ g, S g ∧ f ∘ g = id ∧ g ∘ f = id
  lat : ∀ t, S (aff M3.one t) ↔ L t

theorem aff_one_comp (r : M3) (t s : Pt) : aff M3.one t ∘ aff r s = aff r (t.plus s) := by
  rw [aff_comp, M3.one_mul]
  congr 1
  simp only [M3.onPt, M3.one, Pt.plus]
  ext <;> simp only [] <;> push_cast <;> ring

namespace SpaceLike
variable {S : (Pt → Pt) → Prop} {L : Pt → Prop} {P : Set M3}

theorem rot_mem (h : SpaceLike S L P) {r : M3} {t : Pt} (hf : S (aff r t)) : r ∈ P := by
  obtain ⟨r', hr, t', e⟩ := h.ops _ hf
  obtain ⟨rfl, -⟩ := aff_inj e
  exact hr

theorem mul_mem (h : SpaceLike S L P) {r r' : M3} (hr : r ∈ P) (hr' : r' ∈ P) : r.mul r' ∈ P := by
  obtain ⟨t, ht⟩ := h.all r hr
  obtain ⟨t', ht'⟩ := h.all r' hr'
  have := h.comp _ _ ht ht'
  rw [aff_comp] at this
  exact h.rot_mem this

/-- Two elements with the same rotation differ by a lattice vector. -/
theorem diff (h : SpaceLike S L P) {r : M3} {t s u : Pt} (ht : S (aff r t)) (hs : S (aff r s)) (e : t = u.plus s) : L u := by
  obtain ⟨g, hg, h1, -⟩ := h.inv _ hs
  have := h.comp _ _ ht hg
  rw [e, ← aff_one_comp, Function.comp_assoc, h1, Function.comp_id] at this
  exact (h.lat _).1 this

theorem add_lat (h : SpaceLike S L P) {r : M3} {t s u : Pt} (hs : S (aff r s)) (hu : L u) (e : t = u.plus s) :
    S (aff r t) := by
  have := h.comp _ _ ((h.lat _).2 hu) hs
  rwa [aff_one_comp, ← e] at this

end SpaceLike

/-- The group in new coordinates. -/
def Conj (c : Pt → Pt) (S : (Pt → Pt) → Prop) : (Pt → Pt) → Prop := fun f' => ∃ f, S f ∧ c ∘ f = f' ∘ c

/-- An orientation-preserving change of basis and origin turns one group into the other. -/
def SameKind (S S' : (Pt → Pt) → Prop) : Prop :=
  ∃ (a : M3) (d : Nat) (q : Pt), 0 < d ∧ 0 < a.det ∧
    ∀ f f' : Pt → Pt, changeOfBasis a d q ∘ f = f' ∘ changeOfBasis a d q → (S f ↔ S' f')

theorem SameKind.symm {S S' : (Pt → Pt) → Prop} (h : SameKind S S') : SameKind S' S := by
  obtain ⟨a, d, q, hd, ha, h⟩ := h
  obtain ⟨b, e, s, he, hb, h1, h2⟩ := changeOfBasis_inv a d q hd ha
  refine ⟨b, e, s, he, hb, fun f f' hf => ?_⟩
  refine (h f' f ?_).symm
  calc changeOfBasis a d q ∘ f' = changeOfBasis a d q ∘ f' ∘ (changeOfBasis b e s ∘ changeOfBasis a d q) := by rw [h2]; rfl
    _ = changeOfBasis a d q ∘ (f' ∘ changeOfBasis b e s) ∘ changeOfBasis a d q := rfl
    _ = (changeOfBasis a d q ∘ changeOfBasis b e s) ∘ f ∘ changeOfBasis a d q := by rw [← hf]; rfl
    _ = f ∘ changeOfBasis a d q := by rw [h1]; rfl

theorem SameKind.trans {S S' S'' : (Pt → Pt) → Prop} (h : SameKind S S') (h' : SameKind S' S'') : SameKind S S'' := by
  obtain ⟨a, d, q, hd, ha, h⟩ := h
  obtain ⟨a', d', q', hd', ha', h'⟩ := h'
  obtain ⟨b, e, s, he, hb, h1, h2⟩ := changeOfBasis_inv a d q hd ha
  have hdet : (a'.mul a).det = a'.det * a.det := by simp only [M3.det, M3.mul]; ring
  refine ⟨a'.mul a, d' * d, changeOfBasis a' d' q' q, Nat.mul_pos hd' hd, by rw [hdet]; exact Int.mul_pos ha' ha, fun f f'' hf => ?_⟩
  rw [← changeOfBasis_comp a a' d d' q q' hd hd'] at hf
  generalize changeOfBasis a d q = φ at *
  generalize changeOfBasis a' d' q' = φ' at *
  generalize changeOfBasis b e s = ψ at *
  have e1 : φ ∘ f = (φ ∘ f ∘ ψ) ∘ φ := by
    calc φ ∘ f = φ ∘ f ∘ (ψ ∘ φ) := by rw [h2]; rfl
      _ = (φ ∘ f ∘ ψ) ∘ φ := rfl
  have e2 : φ' ∘ (φ ∘ f ∘ ψ) = f'' ∘ φ' := by
    calc φ' ∘ (φ ∘ f ∘ ψ) = ((φ' ∘ φ) ∘ f) ∘ ψ := rfl
      _ = f'' ∘ φ' ∘ (φ ∘ ψ) := by rw [hf]; rfl
      _ = f'' ∘ φ' := by rw [h1]; rfl
  exact (h f _ e1).trans (h' _ f'' e2)

theorem sameKind_of_iff {S S' : (Pt → Pt) → Prop} (h : ∀ f, S f ↔ S' f) : SameKind S S' := by
  refine ⟨M3.one, 1, ⟨0, 0, 0⟩, by decide, by decide, ?_⟩
  intro f f' hf
  have : changeOfBasis M3.one 1 ⟨0, 0, 0⟩ = id := by
    funext p; simp [changeOfBasis, M3.one]
  rw [this] at hf
  have : f = f' := hf
  rw [this, h]

theorem sameKind_conj {S : (Pt → Pt) → Prop} {a : M3} {d : Nat} {q : Pt} (hd : 0 < d) (ha : 0 < a.det) :
    SameKind S (Conj (changeOfBasis a d q) S) := by
  obtain ⟨b, e, s, he, hb, h1, h2⟩ := changeOfBasis_inv a d q hd ha
  refine ⟨a, d, q, hd, ha, fun f f' hf => ⟨fun h => ⟨f, h, hf⟩, ?_⟩⟩
  rintro ⟨g, hg, e'⟩
  rw [← hf] at e'
  have : f = g := by
    calc f = (changeOfBasis b e s ∘ changeOfBasis a d q) ∘ f := by rw [h2]; rfl
      _ = changeOfBasis b e s ∘ (changeOfBasis a d q ∘ g) := by rw [e']; rfl
      _ = (changeOfBasis b e s ∘ changeOfBasis a d q) ∘ g := rfl
      _ = g := by rw [h2]; rfl
  rw [this]; exact hg

/-- An affine map in new coordinates. -/
theorem conj_aff {a r r' : M3} {d : Nat} {q t t' : Pt} (hr : a.mul r = r'.mul a)
    (ht : t' = ((Pt.scale (1 / d) (a.onPt t)).plus q).plus (Pt.scale (-1) (r'.onPt q))) :
    changeOfBasis a d q ∘ aff r t = aff r' t' ∘ changeOfBasis a d q := by
  subst ht
  have r11 := congrArg (fun v : M3 => (v.m11 : ℚ)) hr
  have r12 := congrArg (fun v : M3 => (v.m12 : ℚ)) hr
  have r13 := congrArg (fun v : M3 => (v.m13 : ℚ)) hr
  have r21 := congrArg (fun v : M3 => (v.m21 : ℚ)) hr
  have r22 := congrArg (fun v : M3 => (v.m22 : ℚ)) hr
  have r23 := congrArg (fun v : M3 => (v.m23 : ℚ)) hr
  have r31 := congrArg (fun v : M3 => (v.m31 : ℚ)) hr
  have r32 := congrArg (fun v : M3 => (v.m32 : ℚ)) hr
  have r33 := congrArg (fun v : M3 => (v.m33 : ℚ)) hr
  simp only [M3.mul] at r11 r12 r13 r21 r22 r23 r31 r32 r33
  push_cast at r11 r12 r13 r21 r22 r23 r31 r32 r33
  funext p
  simp only [Function.comp_apply, changeOfBasis, aff, M3.onPt, Pt.plus, Pt.scale]
  ext
  · simp only []
    linear_combination (p.x * r11 + p.y * r12 + p.z * r13) / d
  · simp only []
    linear_combination (p.x * r21 + p.y * r22 + p.z * r23) / d
  · simp only []
    linear_combination (p.x * r31 + p.y * r32 + p.z * r33) / d

/-- A positive determinant cancels. -/
theorem M3.cancel_left {a r r' : M3} (ha : 0 < a.det) (h : a.mul r = a.mul r') : r = r' := by
  obtain ⟨a11, a12, a13, a21, a22, a23, a31, a32, a33⟩ := a
  simp only [M3.mul, M3.mk.injEq] at h
  simp only [M3.det] at ha
  obtain ⟨h1, h2, h3, h4, h5, h6, h7, h8, h9⟩ := h
  have key : ∀ {x y : Int}, (a11 * (a22 * a33 - a32 * a23) - a12 * (a21 * a33 - a31 * a23) + a13 * (a21 * a32 - a31 * a22)) * x =
      (a11 * (a22 * a33 - a32 * a23) - a12 * (a21 * a33 - a31 * a23) + a13 * (a21 * a32 - a31 * a22)) * y → x = y :=
    fun h => Int.eq_of_mul_eq_mul_left ha.ne' h
  ext <;> apply key
  · linear_combination (a22 * a33 - a23 * a32) * h1 + (a13 * a32 - a12 * a33) * h4 + (a12 * a23 - a13 * a22) * h7
  · linear_combination (a22 * a33 - a23 * a32) * h2 + (a13 * a32 - a12 * a33) * h5 + (a12 * a23 - a13 * a22) * h8
  · linear_combination (a22 * a33 - a23 * a32) * h3 + (a13 * a32 - a12 * a33) * h6 + (a12 * a23 - a13 * a22) * h9
  · linear_combination (a23 * a31 - a21 * a33) * h1 + (a11 * a33 - a13 * a31) * h4 + (a13 * a21 - a11 * a23) * h7
  · linear_combination (a23 * a31 - a21 * a33) * h2 + (a11 * a33 - a13 * a31) * h5 + (a13 * a21 - a11 * a23) * h8
  · linear_combination (a23 * a31 - a21 * a33) * h3 + (a11 * a33 - a13 * a31) * h6 + (a13 * a21 - a11 * a23) * h9
  · linear_combination (a21 * a32 - a22 * a31) * h1 + (a12 * a31 - a11 * a32) * h4 + (a11 * a22 - a12 * a21) * h7
  · linear_combination (a21 * a32 - a22 * a31) * h2 + (a12 * a31 - a11 * a32) * h5 + (a11 * a22 - a12 * a21) * h8
  · linear_combination (a21 * a32 - a22 * a31) * h3 + (a12 * a31 - a11 * a32) * h6 + (a11 * a22 - a12 * a21) * h9

theorem M3.transpose_det (a : M3) : a.transpose.det = a.det := by simp only [M3.det, M3.transpose]; ring

theorem M3.cancel_right {a r r' : M3} (ha : 0 < a.det) (h : r.mul a = r'.mul a) : r = r' := by
  have tm : ∀ x y : M3, (x.mul y).transpose = y.transpose.mul x.transpose := by
    intro x y; ext <;> simp only [M3.transpose, M3.mul] <;> ring
  have e := congrArg M3.transpose h
  rw [tm, tm] at e
  have := M3.cancel_left (a := a.transpose) (by rw [M3.transpose_det]; exact ha) e
  have tt : ∀ x : M3, x.transpose.transpose = x := fun x => rfl
  rw [← tt r, ← tt r', this]

/-- In new coordinates the group is again such a group. -/
theorem SpaceLike.conj {S : (Pt → Pt) → Prop} {L L' : Pt → Prop} {P P' : Set M3} (h : SpaceLike S L P) {a : M3} {d : Nat}
    {q : Pt} (hd : 0 < d) (ha : 0 < a.det) (h1 : ∀ r ∈ P, ∃ p ∈ P', a.mul r = p.mul a)
    (h2 : ∀ p ∈ P', ∃ r ∈ P, a.mul r = p.mul a) (hL : ∀ t, L t ↔ L' (Pt.scale (1 / d) (a.onPt t))) :
    SpaceLike (Conj (changeOfBasis a d q) S) L' P' := by
  obtain ⟨b, e, s, he, hb, i1, i2⟩ := changeOfBasis_inv a d q hd ha
  have hc : ∀ {f g : Pt → Pt}, f ∘ changeOfBasis a d q = g ∘ changeOfBasis a d q → f = g := by
    intro f g hfg
    calc f = f ∘ (changeOfBasis a d q ∘ changeOfBasis b e s) := by rw [i1]; rfl
      _ = (f ∘ changeOfBasis a d q) ∘ changeOfBasis b e s := rfl
      _ = g ∘ (changeOfBasis a d q ∘ changeOfBasis b e s) := by rw [hfg]; rfl
      _ = g := by rw [i1]; rfl
  have shape : ∀ f f', S f → changeOfBasis a d q ∘ f = f' ∘ changeOfBasis a d q →
      ∃ r ∈ P, ∃ t, ∃ p ∈ P', f = aff r t ∧ a.mul r = p.mul a ∧
        f' = aff p (((Pt.scale (1 / d) (a.onPt t)).plus q).plus (Pt.scale (-1) (p.onPt q))) := by
    intro f f' hf hff
    obtain ⟨r, hr, t, rfl⟩ := h.ops f hf
    obtain ⟨p, hp, e⟩ := h1 r hr
    refine ⟨r, hr, t, p, hp, rfl, e, hc ?_⟩
    rw [← hff]
    exact conj_aff e rfl
  refine ⟨?_, ?_, ?_, ?_, ?_⟩
  · rintro f' ⟨f, hf, hff⟩
    obtain ⟨r, hr, t, p, hp, -, -, e⟩ := shape f f' hf hff
    exact ⟨p, hp, _, e⟩
  · intro p hp
    obtain ⟨r, hr, e⟩ := h2 p hp
    obtain ⟨t, ht⟩ := h.all r hr
    exact ⟨_, _, ht, conj_aff e rfl⟩
  · rintro f' g' ⟨f, hf, hff⟩ ⟨g, hg, hgg⟩
    refine ⟨f ∘ g, h.comp _ _ hf hg, ?_⟩
    rw [← Function.comp_assoc, hff, Function.comp_assoc, hgg, Function.comp_assoc]
  · rintro f' ⟨f, hf, hff⟩
    obtain ⟨g, hg, g1, g2⟩ := h.inv f hf
    refine ⟨changeOfBasis a d q ∘ g ∘ changeOfBasis b e s, ⟨g, hg, ?_⟩, ?_, ?_⟩
    · calc changeOfBasis a d q ∘ g = changeOfBasis a d q ∘ g ∘ (changeOfBasis b e s ∘ changeOfBasis a d q) := by rw [i2]; rfl
        _ = _ := rfl
    · calc f' ∘ changeOfBasis a d q ∘ g ∘ changeOfBasis b e s = (f' ∘ changeOfBasis a d q) ∘ g ∘ changeOfBasis b e s := rfl
        _ = changeOfBasis a d q ∘ (f ∘ g) ∘ changeOfBasis b e s := by rw [← hff]; rfl
        _ = id := by rw [g1]; exact i1
    · apply hc
      calc ((changeOfBasis a d q ∘ g ∘ changeOfBasis b e s) ∘ f') ∘ changeOfBasis a d q
          = changeOfBasis a d q ∘ g ∘ changeOfBasis b e s ∘ (f' ∘ changeOfBasis a d q) := rfl
        _ = changeOfBasis a d q ∘ g ∘ (changeOfBasis b e s ∘ changeOfBasis a d q) ∘ f := by rw [← hff]; rfl
        _ = changeOfBasis a d q ∘ (g ∘ f) := by rw [i2]; rfl
        _ = id ∘ changeOfBasis a d q := by rw [g2]; rfl
  · intro t'
    have hone : ∀ u : Pt, ((Pt.scale (1 / d) (a.onPt u)).plus q).plus (Pt.scale (-1) (M3.one.onPt q)) = Pt.scale (1 / d) (a.onPt u) := by
      intro u
      simp only [Pt.scale, M3.onPt, M3.one, Pt.plus]
      ext <;> simp only [] <;> push_cast <;> ring
    constructor
    · rintro ⟨f, hf, hff⟩
      obtain ⟨r, hr, t, p, hp, rfl, e1, e2⟩ := shape _ _ hf hff
      obtain ⟨rfl, rfl⟩ := aff_inj e2
      have : r = M3.one := M3.cancel_left ha (by rw [e1, M3.one_mul, M3.mul_one])
      subst this
      rw [hone]
      exact (hL t).1 ((h.lat t).1 hf)
    · intro ht'
      have hsurj : ∃ t, Pt.scale (1 / d) (a.onPt t) = t' := by
        refine ⟨changeOfBasis b e s (t'.plus q), ?_⟩
        have := congrFun i1 (t'.plus q)
        simp only [Function.comp_apply, id] at this
        generalize changeOfBasis b e s (t'.plus q) = w at *
        simp only [changeOfBasis, Pt.plus, Pt.mk.injEq, add_left_inj] at this
        simp only [Pt.scale, M3.onPt]
        ext <;> simp only []
        · rw [← this.1]; ring
        · rw [← this.2.1]; ring
        · rw [← this.2.2]; ring
      obtain ⟨t, rfl⟩ := hsurj
      exact ⟨aff M3.one t, (h.lat t).2 ((hL t).2 ht'), conj_aff (by rw [M3.one_mul, M3.mul_one]) (hone t).symm⟩

end Verif
