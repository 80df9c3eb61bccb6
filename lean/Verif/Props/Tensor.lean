import Verif.Spec.Tensor
import Verif.Props.Polar

/-! # Piezoelectric groups (C111) -/

namespace Verif

/-! ## Change of basis -/

theorem SameType.piezo_le {n n' : HallSymbolNotation} (h : SameType n n') (hf : Piezoelectric n') : Piezoelectric n := by
  obtain ⟨T, ⟨t1, t2, t3⟩, hs, ⟨u0, v0, w0, h0⟩, hk⟩ := hf
  obtain ⟨a, d, q, hd, ha, h⟩ := h
  obtain ⟨b, e, s, he, hb, h1, h2⟩ := changeOfBasis_inv a d q hd ha
  have c1 := fun x => congrFun h1 x
  simp only [Function.comp_apply, id] at c1
  let L : Pt → Pt := changeOfBasis a d ⟨0, 0, 0⟩
  have Ladd : ∀ u v, L (u.toward v) = (L u).toward (L v) := by
    intro u v
    simp only [L, changeOfBasis, Pt.toward]
    ext <;> simp only [] <;> ring
  have cadd : ∀ p u, changeOfBasis a d q (p.toward u) = (changeOfBasis a d q p).toward (L u) := by
    intro p u
    simp only [L, changeOfBasis, Pt.toward]
    ext <;> simp only [] <;> ring
  have Lsub : ∀ u v : Pt, L ⟨u.x - v.x, u.y - v.y, u.z - v.z⟩ = ⟨(changeOfBasis a d q u).x - (changeOfBasis a d q v).x,
      (changeOfBasis a d q u).y - (changeOfBasis a d q v).y, (changeOfBasis a d q u).z - (changeOfBasis a d q v).z⟩ := by
    intro u v
    simp only [L, changeOfBasis]
    ext <;> simp only [] <;> ring
  have Lsurj : ∀ u, ∃ v, L v = u := by
    intro u
    refine ⟨⟨(changeOfBasis b e s u).x - (changeOfBasis b e s ⟨0, 0, 0⟩).x, (changeOfBasis b e s u).y - (changeOfBasis b e s ⟨0, 0, 0⟩).y,
      (changeOfBasis b e s u).z - (changeOfBasis b e s ⟨0, 0, 0⟩).z⟩, ?_⟩
    rw [Lsub, c1, c1]
    ext <;> simp only [] <;> ring
  refine ⟨fun u v w => T (L u) (L v) (L w), ⟨?_, ?_, ?_⟩, fun u v w => hs _ _ _, ?_, ?_⟩
  · intro u u' v w; simp only [Ladd, t1]
  · intro u u' v w; simp only [Ladd, t2]
  · intro u u' v w; simp only [Ladd, t3]
  · obtain ⟨u, rfl⟩ := Lsurj u0
    obtain ⟨v, rfl⟩ := Lsurj v0
    obtain ⟨w, rfl⟩ := Lsurj w0
    exact ⟨u, v, w, h0⟩
  · intro f hf p u v w
    have ef : changeOfBasis a d q ∘ f = (changeOfBasis a d q ∘ f ∘ changeOfBasis b e s) ∘ changeOfBasis a d q := by
      calc _ = (changeOfBasis a d q ∘ f) ∘ (changeOfBasis b e s ∘ changeOfBasis a d q) := by rw [h2]; rfl
        _ = _ := rfl
    have hf' := (h _ _ ef).1 hf
    have tt : ∀ x, L (turned f p x) = turned (changeOfBasis a d q ∘ f ∘ changeOfBasis b e s) (changeOfBasis a d q p) (L x) := by
      intro x
      have c2 := fun x => congrFun h2 x
      simp only [Function.comp_apply, id] at c2
      simp only [turned, ← cadd, Function.comp_apply, c2, Lsub]
    simp only [tt]
    exact hk _ hf' _ _ _ _

theorem SameType.piezo {n n' : HallSymbolNotation} (h : SameType n n') : Piezoelectric n ↔ Piezoelectric n' :=
  ⟨h.symm.piezo_le, h.piezo_le⟩

/-! ## Tensors by coefficients -/

/-- The image of a displacement under a rotation part. -/
def M3.turnDisp (r : M3) (u : Pt) : Pt :=
  ⟨r.m11 * u.x + r.m12 * u.y + r.m13 * u.z, r.m21 * u.x + r.m22 * u.y + r.m23 * u.z, r.m31 * u.x + r.m32 * u.y + r.m33 * u.z⟩

theorem turned_act (m : M4) (p u : Pt) : turned m.act p u = m.rot.turnDisp u := by
  simp only [turned, Pt.toward, M4.act, M3.turnDisp]
  ext <;> simp only [] <;> ring

/-- A group leaves a tensor alone if the rotations of the generators do. -/
theorem tensorKept_of_gens {n : HallSymbolNotation} {ms : List M4} (hms : n.seitzMatrices = some ms) {T : Pt → Pt → Pt → ℝ}
    (h : ∀ m ∈ n.gens ms, ∀ u v w, T (m.rot.turnDisp u) (m.rot.turnDisp v) (m.rot.turnDisp w) = T u v w) : TensorKept n T := by
  intro f hf
  induction hf with
  | one => intro p u v w; congr <;> simp only [turned, Pt.toward, id] <;> ext <;> simp only [] <;> ring
  | cell k => intro p u v w; congr <;> simp only [turned, Pt.toward, Pt.addCell] <;> ext <;> simp only [] <;> ring
  | centring hv => intro p u v w; congr <;> simp only [turned, Pt.toward, Pt.addTwelfths] <;> ext <;> simp only [] <;> ring
  | inversion hm =>
    intro p u v w
    have := h M4.inversion (by
      unfold HallSymbolNotation.gens
      rw [if_pos hm]
      exact List.mem_append_left _ (List.mem_singleton.2 rfl)) u v w
    rw [inversion_act]
    simp only [turned_act]
    exact this
  | generator hs hg =>
    intro p u v w
    rename_i s g
    obtain ⟨g', hmem, e⟩ := (seitzMatrices_mem hms).2 s hs
    rw [hg] at e
    obtain rfl := Option.some.inj e
    rw [shifted_act]
    simp only [turned_act]
    exact h ⟨g.rot, _, V3.zero, 1⟩ (List.mem_append_right _ (List.mem_map.2 ⟨g, hmem, rfl⟩)) u v w
  | comp _ _ ih1 ih2 =>
    rename_i f g _ _
    intro p u v w
    have e : ∀ x, turned (f ∘ g) p x = turned f (g p) (turned g p x) := by
      intro x
      have : (g p).toward (turned g p x) = g (p.toward x) := by
        simp only [turned, Pt.toward]
        ext <;> simp only [] <;> ring
      simp only [turned, Function.comp_apply] at this ⊢
      rw [this]
    simp only [e]
    rw [ih1, ih2]
  | inv _ h1 h2 ih =>
    rename_i f g _
    intro p u v w
    have c1 := fun x => congrFun h1 x
    simp only [Function.comp_apply, id] at c1
    rw [← ih (g p) (turned g p u) (turned g p v) (turned g p w)]
    have e : ∀ x, turned f (g p) (turned g p x) = x := by
      intro x
      have : (g p).toward (turned g p x) = g (p.toward x) := by
        simp only [turned, Pt.toward]
        ext <;> simp only [] <;> ring
      have e2 : turned f (g p) (turned g p x) = ⟨(f (g (p.toward x))).x - (f (g p)).x, (f (g (p.toward x))).y - (f (g p)).y,
          (f (g (p.toward x))).z - (f (g p)).z⟩ := by
        rw [← this]; rfl
      rw [e2, c1, c1]
      simp only [Pt.toward]
      ext <;> simp only [] <;> ring
    simp only [e]

/-- Coefficients of a tensor: for each first place a matrix for the other two. -/
structure Coefs where
  a : M3
  b : M3
  c : M3

/-- Symmetric in the last two places, and not zero. -/
def Coefs.good (t : Coefs) : Bool :=
  [t.a, t.b, t.c].all (fun m => decide (m.m12 = m.m21 ∧ m.m13 = m.m31 ∧ m.m23 = m.m32)) &&
  [t.a, t.b, t.c].any (fun m => decide (m ≠ ⟨0, 0, 0, 0, 0, 0, 0, 0, 0⟩))

/-- The value for three vectors. -/
def Coefs.int (t : Coefs) (u v w : V3) : Int :=
  u.x * V3.dot v (t.a.mulVec w) + u.y * V3.dot v (t.b.mulVec w) + u.z * V3.dot v (t.c.mulVec w)

/-- The value for three displacements. -/
def Coefs.rat (t : Coefs) (u v w : Pt) : ℚ :=
  let p (m : M3) : ℚ := v.x * (m.turnDisp w).x + v.y * (m.turnDisp w).y + v.z * (m.turnDisp w).z
  u.x * p t.a + u.y * p t.b + u.z * p t.c

/-- The three unit vectors. -/
def unitVectors : List V3 := [⟨1, 0, 0⟩, ⟨0, 1, 0⟩, ⟨0, 0, 1⟩]

/-- The rotation keeps the values for unit vectors. -/
def Coefs.keptBy (t : Coefs) (r : M3) : Bool :=
  unitVectors.all fun u => unitVectors.all fun v => unitVectors.all fun w =>
    intEqB (t.int (r.mulVec u) (r.mulVec v) (r.mulVec w)) (t.int u v w)

theorem Coefs.lin1 (t : Coefs) (r : M3) (u V W : Pt) : t.rat (r.turnDisp u) V W =
    u.x * t.rat (r.turnDisp ⟨1, 0, 0⟩) V W + u.y * t.rat (r.turnDisp ⟨0, 1, 0⟩) V W + u.z * t.rat (r.turnDisp ⟨0, 0, 1⟩) V W := by
  simp only [Coefs.rat, M3.turnDisp]; ring

theorem Coefs.lin2 (t : Coefs) (r : M3) (u V W : Pt) : t.rat V (r.turnDisp u) W =
    u.x * t.rat V (r.turnDisp ⟨1, 0, 0⟩) W + u.y * t.rat V (r.turnDisp ⟨0, 1, 0⟩) W + u.z * t.rat V (r.turnDisp ⟨0, 0, 1⟩) W := by
  simp only [Coefs.rat, M3.turnDisp]; ring

theorem Coefs.lin3 (t : Coefs) (r : M3) (u V W : Pt) : t.rat V W (r.turnDisp u) =
    u.x * t.rat V W (r.turnDisp ⟨1, 0, 0⟩) + u.y * t.rat V W (r.turnDisp ⟨0, 1, 0⟩) + u.z * t.rat V W (r.turnDisp ⟨0, 0, 1⟩) := by
  simp only [Coefs.rat, M3.turnDisp]; ring

theorem turn_one (u : Pt) : (⟨1, 0, 0, 0, 1, 0, 0, 0, 1⟩ : M3).turnDisp u = u := by
  simp only [M3.turnDisp]
  ext <;> simp

/-- An integer vector as a displacement. -/
def V3.disp (v : V3) : Pt := ⟨v.x, v.y, v.z⟩

theorem turn_pt (r : M3) (v : V3) : r.turnDisp v.disp = (r.mulVec v).disp := by
  simp only [M3.turnDisp, V3.disp, M3.mulVec]
  push_cast
  rfl

theorem Coefs.rat_pt (t : Coefs) (u v w : V3) : t.rat u.disp v.disp w.disp = t.int u v w := by
  simp only [Coefs.rat, Coefs.int, V3.dot, M3.mulVec, M3.turnDisp, V3.disp]
  push_cast
  ring

theorem Coefs.keptBy_sound {t : Coefs} {r : M3} (h : t.keptBy r = true) (u v w : Pt) :
    t.rat (r.turnDisp u) (r.turnDisp v) (r.turnDisp w) = t.rat u v w := by
  have key : ∀ a ∈ unitVectors, ∀ b ∈ unitVectors, ∀ c ∈ unitVectors,
      t.rat (r.turnDisp a.disp) (r.turnDisp b.disp) (r.turnDisp c.disp) = t.rat a.disp b.disp c.disp := by
    intro a ha b hb c hc
    have := intEqB_iff.1 (List.all_eq_true.1 (List.all_eq_true.1 (List.all_eq_true.1 h a ha) b hb) c hc)
    rw [turn_pt, turn_pt, turn_pt, Coefs.rat_pt, Coefs.rat_pt, this]
  simp only [unitVectors, List.forall_mem_cons, List.not_mem_nil, false_imp_iff, implies_true, and_true, V3.disp, Int.cast_one,
    Int.cast_zero] at key
  conv_rhs => rw [← turn_one u, ← turn_one v, ← turn_one w]
  rw [Coefs.lin1 t r, Coefs.lin1 t _ u]
  simp only [Coefs.lin2 t r v, Coefs.lin2 t _ v]
  simp only [Coefs.lin3 t r w, Coefs.lin3 t _ w]
  simp only [turn_one, key]

/-- A group is piezoelectric if its generators keep a tensor. -/
theorem piezo_of_gens {n : HallSymbolNotation} {ms : List M4} (hms : n.seitzMatrices = some ms) {t : Coefs}
    (ht : t.good = true) (h : ∀ m ∈ n.gens ms, t.keptBy m.rot = true) : Piezoelectric n := by
  unfold Coefs.good at ht
  rw [Bool.and_eq_true] at ht
  obtain ⟨h1, h2⟩ := ht
  simp only [List.all_cons, List.all_nil, Bool.and_true, Bool.and_eq_true, decide_eq_true_eq] at h1
  obtain ⟨⟨a1, a2, a3⟩, ⟨b1, b2, b3⟩, c1, c2, c3⟩ := h1
  refine ⟨fun u v w => (t.rat u v w : ℚ), ⟨?_, ?_, ?_⟩, ?_, ?_, tensorKept_of_gens hms fun m hm u v w => ?_⟩
  · intro u u' v w; simp only [Coefs.rat, Pt.toward, M3.turnDisp]; push_cast; ring
  · intro u u' v w; simp only [Coefs.rat, Pt.toward, M3.turnDisp]; push_cast; ring
  · intro u u' v w; simp only [Coefs.rat, Pt.toward, M3.turnDisp]; push_cast; ring
  · intro u v w
    simp only [Coefs.rat, M3.turnDisp, a1, a2, a3, b1, b2, b3, c1, c2, c3]
    push_cast
    ring
  · by_contra hcon
    push Not at hcon
    have hz : ∀ u ∈ unitVectors, ∀ v ∈ unitVectors, ∀ w ∈ unitVectors, t.int u v w = 0 := by
      intro u _ v _ w _
      have := hcon u.disp v.disp w.disp
      rw [Coefs.rat_pt] at this
      exact_mod_cast this
    simp only [unitVectors, List.forall_mem_cons, List.not_mem_nil, false_imp_iff, implies_true, and_true, Coefs.int, V3.dot,
      M3.mulVec, mul_one, mul_zero, zero_mul, one_mul, add_zero, zero_add] at hz
    obtain ⟨m, hm, hne⟩ := List.any_eq_true.1 h2
    apply of_decide_eq_true hne
    simp only [List.mem_cons, List.not_mem_nil, or_false] at hm
    rcases hm with rfl | rfl | rfl <;> apply M3.ext <;> tauto
  · rw [Coefs.keptBy_sound (h m hm)]

/-! ## Groups that are not piezoelectric -/

theorem IsTensor.neg1 {T : Pt → Pt → Pt → ℝ} (h : IsTensor T) (u v w : Pt) : T ⟨-u.x, -u.y, -u.z⟩ v w = - T u v w := by
  have z : T ⟨0, 0, 0⟩ v w = 0 := by
    have := h.first ⟨0, 0, 0⟩ ⟨0, 0, 0⟩ v w
    simp only [Pt.toward, add_zero] at this
    linarith
  have := h.first u ⟨-u.x, -u.y, -u.z⟩ v w
  simp only [Pt.toward, add_neg_cancel, z] at this
  linarith

theorem IsTensor.neg2 {T : Pt → Pt → Pt → ℝ} (h : IsTensor T) (u v w : Pt) : T u ⟨-v.x, -v.y, -v.z⟩ w = - T u v w := by
  have z : T u ⟨0, 0, 0⟩ w = 0 := by
    have := h.second u ⟨0, 0, 0⟩ ⟨0, 0, 0⟩ w
    simp only [Pt.toward, add_zero] at this
    linarith
  have := h.second u v ⟨-v.x, -v.y, -v.z⟩ w
  simp only [Pt.toward, add_neg_cancel, z] at this
  linarith

theorem IsTensor.neg3 {T : Pt → Pt → Pt → ℝ} (h : IsTensor T) (u v w : Pt) : T u v ⟨-w.x, -w.y, -w.z⟩ = - T u v w := by
  have z : T u v ⟨0, 0, 0⟩ = 0 := by
    have := h.third u v ⟨0, 0, 0⟩ ⟨0, 0, 0⟩
    simp only [Pt.toward, add_zero] at this
    linarith
  have := h.third u v w ⟨-w.x, -w.y, -w.z⟩
  simp only [Pt.toward, add_neg_cancel, z] at this
  linarith

/-- A centre rules it out. -/
theorem not_piezo_of_centre {n : HallSymbolNotation} (h : HasCentre n) : ¬ Piezoelectric n := by
  rintro ⟨T, hT, -, ⟨u, v, w, h0⟩, hk⟩
  obtain ⟨f, hf, c, hc⟩ := h
  apply h0
  have := hk f hf ⟨0, 0, 0⟩ u v w
  have e : ∀ x, turned f ⟨0, 0, 0⟩ x = ⟨-x.x, -x.y, -x.z⟩ := by
    intro x
    simp only [turned, hc, Pt.toward]
    ext <;> simp only [] <;> ring
  rw [e, e, e, hT.neg1, hT.neg2, hT.neg3] at this
  linarith

theorem additive_zero {g : Pt → ℝ} (hg : ∀ u u' : Pt, g (u.toward u') = g u + g u') (h1 : g ⟨1, 0, 0⟩ = 0)
    (h2 : g ⟨0, 1, 0⟩ = 0) (h3 : g ⟨0, 0, 1⟩ = 0) (u : Pt) : g u = 0 := by
  have line : ∀ (i : ℚ → Pt), (∀ a b, i (a + b) = (i a).toward (i b)) → g (i 1) = 0 → ∀ a, g (i a) = 0 := by
    intro i hi h a
    let φ : ℚ →+ ℝ := AddMonoidHom.mk' (fun a => g (i a)) fun a b => by rw [hi, hg]
    have e := map_rat_smul φ a (1 : ℚ)
    simp only [smul_eq_mul, mul_one] at e
    have e2 : φ 1 = 0 := h
    rw [e2, smul_zero] at e
    exact e
  have e : u = ((⟨u.x, 0, 0⟩ : Pt).toward ⟨0, u.y, 0⟩).toward ⟨0, 0, u.z⟩ := by
    simp only [Pt.toward]
    ext <;> simp
  rw [e, hg, hg, line (fun a => ⟨a, 0, 0⟩) (by intro a b; simp [Pt.toward]) h1,
    line (fun a => ⟨0, a, 0⟩) (by intro a b; simp [Pt.toward]) h2, line (fun a => ⟨0, 0, a⟩) (by intro a b; simp [Pt.toward]) h3]
  norm_num

/-- A tensor that vanishes on the unit displacements is zero. -/
theorem IsTensor.zero {T : Pt → Pt → Pt → ℝ} (h : IsTensor T)
    (hz : ∀ a ∈ unitVectors, ∀ b ∈ unitVectors, ∀ c ∈ unitVectors, T a.disp b.disp c.disp = 0) (u v w : Pt) : T u v w = 0 := by
  simp only [unitVectors, List.forall_mem_cons, List.not_mem_nil, false_imp_iff, implies_true, and_true, V3.disp, Int.cast_one,
    Int.cast_zero] at hz
  refine additive_zero (g := fun u => T u v w) (fun u u' => h.first u u' v w) ?_ ?_ ?_ u
  all_goals refine additive_zero (g := fun v => T _ v w) (fun u u' => h.second _ u u' w) ?_ ?_ ?_ v
  all_goals refine additive_zero (g := fun w => T _ _ w) (fun u u' => h.third _ _ u u') ?_ ?_ ?_ w
  all_goals tauto

/-- The class 432 rules it out. -/
theorem not_piezo_of_432 {n : HallSymbolNotation} {ms : List M4} (hms : n.seitzMatrices = some ms)
    (h : (n.gens ms).map M4.rot = [⟨0, -1, 0, 1, 0, 0, 0, 0, 1⟩, ⟨1, 0, 0, 0, -1, 0, 0, 0, -1⟩, ⟨0, 0, 1, 1, 0, 0, 0, 1, 0⟩]) :
    ¬ Piezoelectric n := by
  rintro ⟨T, hT, hs, ⟨u, v, w, h0⟩, hk⟩
  have hr : ∀ r ∈ (n.gens ms).map M4.rot, ∀ u v w, T (r.turnDisp u) (r.turnDisp v) (r.turnDisp w) = T u v w := by
    intro r hr u v w
    obtain ⟨m, hm, rfl⟩ := List.mem_map.1 hr
    have := hk _ (gens_inGroup hms m hm).2 ⟨0, 0, 0⟩ u v w
    simpa only [turned_act] using this
  rw [h] at hr
  simp only [List.forall_mem_cons, List.not_mem_nil, false_imp_iff, implies_true, and_true] at hr
  obtain ⟨q, d, c⟩ := hr
  simp only [M3.turnDisp, Int.cast_one, Int.cast_zero, Int.cast_neg, zero_mul, one_mul, neg_mul, zero_add, add_zero] at q d c
  have n1 := hT.neg1
  have n2 := hT.neg2
  have n3 := hT.neg3
  obtain ⟨e1, he1⟩ : ∃ e : Pt, e = ⟨1, 0, 0⟩ := ⟨_, rfl⟩
  obtain ⟨e2, he2⟩ : ∃ e : Pt, e = ⟨0, 1, 0⟩ := ⟨_, rfl⟩
  obtain ⟨e3, he3⟩ : ∃ e : Pt, e = ⟨0, 0, 1⟩ := ⟨_, rfl⟩
  have c1 : (⟨e1.z, e1.x, e1.y⟩ : Pt) = e2 := by rw [he1, he2]
  have c2 : (⟨e2.z, e2.x, e2.y⟩ : Pt) = e3 := by rw [he2, he3]
  have c3 : (⟨e3.z, e3.x, e3.y⟩ : Pt) = e1 := by rw [he3, he1]
  have d1 : (⟨e1.x, -e1.y, -e1.z⟩ : Pt) = e1 := by rw [he1]; simp
  have d2 : (⟨e2.x, -e2.y, -e2.z⟩ : Pt) = ⟨-e2.x, -e2.y, -e2.z⟩ := by rw [he2]; simp
  have d3 : (⟨e3.x, -e3.y, -e3.z⟩ : Pt) = ⟨-e3.x, -e3.y, -e3.z⟩ := by rw [he3]; simp
  have q1 : (⟨-e1.y, e1.x, e1.z⟩ : Pt) = e2 := by rw [he1, he2]; simp
  have q2 : (⟨-e2.y, e2.x, e2.z⟩ : Pt) = ⟨-e1.x, -e1.y, -e1.z⟩ := by rw [he2, he1]; simp
  have q3 : (⟨-e3.y, e3.x, e3.z⟩ : Pt) = e3 := by rw [he3]; simp
  apply h0
  have C : ∀ a b c', T ⟨a.z, a.x, a.y⟩ ⟨b.z, b.x, b.y⟩ ⟨c'.z, c'.x, c'.y⟩ = T a b c' := c
  have t112 := d e1 e1 e2
  have t113 := d e1 e1 e3
  have t121 := d e1 e2 e1
  have t131 := d e1 e3 e1
  have t211 := d e2 e1 e1
  have t311 := d e3 e1 e1
  have t222 := d e2 e2 e2
  have t312 := q e3 e1 e2
  rw [d1, d2, n3] at t112
  rw [d1, d3, n3] at t113
  rw [d1, d2, n2] at t121
  rw [d1, d3, n2] at t131
  rw [d1, d2, n1] at t211
  rw [d1, d3, n1] at t311
  rw [d2, n1, n2, n3] at t222
  rw [q1, q2, q3, n3] at t312
  have s312 := hs e3 e1 e2
  have cyc : ∀ i j k i' j' k' : Pt, (⟨i.z, i.x, i.y⟩ : Pt) = i' → (⟨j.z, j.x, j.y⟩ : Pt) = j' → (⟨k.z, k.x, k.y⟩ : Pt) = k' →
      T i' j' k' = T i j k := by
    rintro i j k _ _ _ rfl rfl rfl
    exact C i j k
  have z111 : T e1 e1 e1 = 0 := by have := cyc _ _ _ _ _ _ c1 c1 c1; linarith
  have z112 : T e1 e1 e2 = 0 := by linarith
  have z113 : T e1 e1 e3 = 0 := by linarith
  have z121 : T e1 e2 e1 = 0 := by linarith
  have z131 : T e1 e3 e1 = 0 := by linarith
  have z122 : T e1 e2 e2 = 0 := by
    have a1 := cyc _ _ _ _ _ _ c1 c2 c2
    have a2 := cyc _ _ _ _ _ _ c2 c3 c3
    linarith
  have z133 : T e1 e3 e3 = 0 := by have a1 := cyc _ _ _ _ _ _ c1 c3 c3; linarith
  have z123 : T e1 e2 e3 = 0 := by
    have a1 := cyc _ _ _ _ _ _ c1 c2 c3
    have a2 := cyc _ _ _ _ _ _ c2 c3 c1
    linarith
  have z132 : T e1 e3 e2 = 0 := by have := hs e1 e3 e2; linarith
  have k2 : ∀ i j k i' j' k', (⟨i.z, i.x, i.y⟩ : Pt) = i' → (⟨j.z, j.x, j.y⟩ : Pt) = j' → (⟨k.z, k.x, k.y⟩ : Pt) = k' →
      T i j k = 0 → T i' j' k' = 0 := fun i j k i' j' k' x y z e => (cyc i j k i' j' k' x y z).trans e
  have y222 := k2 _ _ _ _ _ _ c1 c1 c1 z111
  have y223 := k2 _ _ _ _ _ _ c1 c1 c2 z112
  have y221 := k2 _ _ _ _ _ _ c1 c1 c3 z113
  have y232 := k2 _ _ _ _ _ _ c1 c2 c1 z121
  have y212 := k2 _ _ _ _ _ _ c1 c3 c1 z131
  have y233 := k2 _ _ _ _ _ _ c1 c2 c2 z122
  have y211 := k2 _ _ _ _ _ _ c1 c3 c3 z133
  have y231 := k2 _ _ _ _ _ _ c1 c2 c3 z123
  have y213 := k2 _ _ _ _ _ _ c1 c3 c2 z132
  have x333 := k2 _ _ _ _ _ _ c2 c2 c2 y222
  have x331 := k2 _ _ _ _ _ _ c2 c2 c3 y223
  have x332 := k2 _ _ _ _ _ _ c2 c2 c1 y221
  have x313 := k2 _ _ _ _ _ _ c2 c3 c2 y232
  have x323 := k2 _ _ _ _ _ _ c2 c1 c2 y212
  have x311 := k2 _ _ _ _ _ _ c2 c3 c3 y233
  have x322 := k2 _ _ _ _ _ _ c2 c1 c1 y211
  have x312 := k2 _ _ _ _ _ _ c2 c3 c1 y231
  have x321 := k2 _ _ _ _ _ _ c2 c1 c3 y213
  refine hT.zero ?_ u v w
  simp only [unitVectors, List.forall_mem_cons, List.not_mem_nil, false_imp_iff, implies_true, and_true, V3.disp, Int.cast_one,
    Int.cast_zero, ← he1, ← he2, ← he3]
  tauto

/-! ## The tables -/

/-- Nine tensors; every piezoelectric row keeps one. -/
def someTensors : List Coefs := [
  ⟨⟨0, 0, 0, 0, 0, 0, 0, 0, 0⟩, ⟨0, 0, 0, 0, 0, 0, 0, 0, 0⟩, ⟨0, 0, 0, 0, 0, 0, 0, 0, 1⟩⟩,
  ⟨⟨0, 0, 0, 0, 0, 1, 0, 1, 0⟩, ⟨0, 0, 1, 0, 0, 0, 1, 0, 0⟩, ⟨0, 1, 0, 1, 0, 0, 0, 0, 0⟩⟩,
  ⟨⟨0, 0, 0, 0, 0, 1, 0, 1, 0⟩, ⟨0, 0, -1, 0, 0, 0, -1, 0, 0⟩, ⟨0, 0, 0, 0, 0, 0, 0, 0, 0⟩⟩,
  ⟨⟨0, 1, 0, 1, -1, 0, 0, 0, 0⟩, ⟨1, -1, 0, -1, 0, 0, 0, 0, 0⟩, ⟨0, 0, 0, 0, 0, 0, 0, 0, 0⟩⟩,
  ⟨⟨0, 0, 0, 0, 0, 0, 0, 0, 0⟩, ⟨1, 0, 0, 0, 0, 0, 0, 0, 0⟩, ⟨0, 0, 0, 0, 0, 0, 0, 0, 0⟩⟩,
  ⟨⟨0, 0, 0, 0, 0, 0, 0, 0, 1⟩, ⟨0, 0, 0, 0, 0, 0, 0, 0, 0⟩, ⟨0, 0, 0, 0, 0, 0, 0, 0, 0⟩⟩,
  ⟨⟨0, 0, 0, 0, 0, 0, 0, 0, 0⟩, ⟨0, 0, 0, 0, 0, 0, 0, 0, 0⟩, ⟨1, 0, 0, 0, -1, 0, 0, 0, 0⟩⟩,
  ⟨⟨0, 0, 0, 0, 1, 0, 0, 0, -1⟩, ⟨-1, 0, 0, 0, 0, 0, 0, 0, 1⟩, ⟨1, 0, 0, 0, -1, 0, 0, 0, 0⟩⟩,
  ⟨⟨2, -1, 0, -1, -1, 0, 0, 0, 0⟩, ⟨-1, -1, 0, -1, 2, 0, 0, 0, 0⟩, ⟨0, 0, 0, 0, 0, 0, 0, 0, 0⟩⟩]

theorem someTensors_good : ∀ t ∈ someTensors, t.good = true := by decide +kernel

/-- The row of the default table with number `k`: piezoelectric, or of class 432, or with a centre. -/
def piezoRow (k : Nat) : Bool :=
  match HallSymbolNotation.tryFromStr (Data.defaultHallName.getD (k - 1) "").toList with
  | some n =>
    match n.seitzMatrices with
    | some ms =>
      bif piezoNumbers.any (fun r => Nat.ble r.1 k && Nat.ble k r.2) then
        someTensors.any fun t => (n.gens ms).all fun m => t.keptBy m.rot
      else bif centricNumbers.any (fun r => Nat.ble r.1 k && Nat.ble k r.2) then true
      else decide ((n.gens ms).map M4.rot =
        [⟨0, -1, 0, 1, 0, 0, 0, 0, 1⟩, ⟨1, 0, 0, 0, -1, 0, 0, 0, -1⟩, ⟨0, 0, 1, 1, 0, 0, 0, 1, 0⟩])
    | none => false
  | none => false

set_option maxRecDepth 100000 in
theorem piezoRows : (List.range 230).all (fun i => piezoRow (i + 1)) = true := by decide +kernel

theorem piezo_range : ∀ k, inRanges k piezoNumbers → 1 ≤ k ∧ k ≤ 230 := by
  intro k h
  simp only [inRanges, piezoNumbers, List.mem_cons, List.not_mem_nil, or_false, exists_eq_or_imp, exists_eq_left] at h
  omega

/-- C111. For every notation with general positions, consistent or not: the group leaves room for piezoelectricity exactly
when its number is one of the 130. -/
theorem piezo_iff_number {n : HallSymbolNotation} {g : GeneralPositions} (hg : HasPositions n g) :
    Piezoelectric n ↔ ∃ k, inRanges k piezoNumbers ∧ HasTypeNumber n k := by
  obtain ⟨k, hk, -⟩ := one_of_230_types hg
  rw [number_unique hg hk piezo_range]
  have hcen := centre_iff_number hg
  rw [number_unique hg hk centric_range] at hcen
  obtain ⟨⟨l1, l2⟩, code, h, n', e1, e2, e3, e4, e5⟩ := hk
  have hrow := List.all_eq_true.1 piezoRows (k - 1) (List.mem_range.2 (by omega))
  rw [Nat.sub_add_cancel l1] at hrow
  unfold piezoRow at hrow
  have e3' : Data.defaultHallName[k - 1]? = some h := e3
  rw [List.getD_eq_getElem?_getD, e3', Option.getD_some, e4] at hrow
  simp only at hrow
  split at hrow
  · rename_i ms hms
    have hdec : ∀ l : List (Nat × Nat), l.any (fun r => Nat.ble r.1 k && Nat.ble k r.2) = true ↔ inRanges k l := by
      intro l
      simp only [List.any_eq_true, Bool.and_eq_true, Nat.ble_eq, inRanges]
    have h1 := hdec piezoNumbers
    have h2 := hdec centricNumbers
    cases hb : piezoNumbers.any (fun r => Nat.ble r.1 k && Nat.ble k r.2)
    · rw [hb] at hrow h1
      simp only [Bool.false_eq_true, false_iff] at h1
      refine iff_of_false ?_ h1
      cases hb2 : centricNumbers.any (fun r => Nat.ble r.1 k && Nat.ble k r.2)
      · rw [hb2] at hrow
        rw [e5.piezo]
        exact not_piezo_of_432 hms (of_decide_eq_true hrow)
      · exact not_piezo_of_centre (hcen.2 (h2.1 hb2))
    · rw [hb] at hrow h1
      simp only [true_iff] at h1
      refine iff_of_true ?_ h1
      rw [e5.piezo]
      obtain ⟨t, ht, h⟩ := List.any_eq_true.1 hrow
      exact piezo_of_gens hms (someTensors_good t ht) fun m hm => List.all_eq_true.1 h m hm
  · cases hrow

/-- C111. Whether a tensor is left alone can be read off the listed operations, consistent or not. -/
theorem tensor_iff_listed {n : HallSymbolNotation} {g : GeneralPositions} (hg : HasPositions n g) (T : Pt → Pt → Pt → ℝ) :
    TensorKept n T ↔ ∀ m ∈ g.corePositionSet, ∀ u v w,
      T (turned m.act ⟨0, 0, 0⟩ u) (turned m.act ⟨0, 0, 0⟩ v) (turned m.act ⟨0, 0, 0⟩ w) = T u v w := by
  obtain ⟨hpg, haff, -⟩ := core_rotations hg
  constructor
  · intro h m hm u v w
    obtain ⟨f, hf, m', e, hr⟩ : ∃ f, SpaceGroup n f ∧ ∃ m' : M4, f = m'.act ∧ m'.rot = m.rot := by
      obtain ⟨f, hf, m', e1, e2⟩ := (hpg m.rot).2 ⟨m, hm, rfl⟩
      exact ⟨f, hf, m', e2, e1⟩
    subst e
    have := h _ hf ⟨0, 0, 0⟩ u v w
    simp only [turned_act, hr] at this ⊢
    exact this
  · intro h f hf p u v w
    obtain ⟨a, rfl, -, -⟩ := hf.isOp
    obtain ⟨m, hm, e⟩ := (hpg a.rot).1 ⟨_, hf, a, rfl, rfl⟩
    have := h m hm u v w
    simp only [turned_act, e] at this ⊢
    exact this

/-- `P 2 2 3` (number 195) leaves room for piezoelectricity, `P 4 2 3` (number 207) and `-P 2 2 3` (number 200) do not. -/
example : HasPositions (hall "P 2 2 3") (positionsOf "P 2 2 3") ∧ HasPositions (hall "P 4 2 3") (positionsOf "P 4 2 3") ∧
    Piezoelectric (hall "P 2 2 3") ∧ ¬ Piezoelectric (hall "P 4 2 3") ∧ ¬ Piezoelectric (hall "-P 2 2 3") := by
  refine ⟨positionsOf_spec (by decide +kernel), positionsOf_spec (by decide +kernel), ?_, ?_, ?_⟩
  · exact piezo_of_gens (ms := (hall "P 2 2 3").seitzMatrices.getD []) (by decide +kernel)
      (t := ⟨⟨0, 0, 0, 0, 0, 1, 0, 1, 0⟩, ⟨0, 0, 1, 0, 0, 0, 1, 0, 0⟩, ⟨0, 1, 0, 1, 0, 0, 0, 0, 0⟩⟩) (by decide +kernel)
      (by decide +kernel)
  · exact not_piezo_of_432 (ms := (hall "P 4 2 3").seitzMatrices.getD []) (by decide +kernel) (by decide +kernel)
  · exact not_piezo_of_centre ⟨_, .inversion (by decide +kernel), ⟨0, 0, 0⟩, fun p => by simp⟩

end Verif
