import Verif.Props.Tensor
import Verif.Props.Cell

/-! # Second-rank tensors and optical activity (C112) -/

namespace Verif

/-! ## Tensors by coefficients -/

theorem additive_lin {g : Pt → ℝ} (hg : ∀ u u' : Pt, g (u.toward u') = g u + g u') (u : Pt) :
    g u = u.x * g edgeA + u.y * g edgeB + u.z * g edgeC := by
  have line : ∀ (i : ℚ → Pt), (∀ a b, i (a + b) = (i a).toward (i b)) → ∀ a, g (i a) = a * g (i 1) := by
    intro i hi a
    let φ : ℚ →+ ℝ := AddMonoidHom.mk' (fun a => g (i a)) fun a b => by rw [hi, hg]
    have e := map_rat_smul φ a (1 : ℚ)
    simp only [smul_eq_mul, mul_one] at e
    rw [Rat.smul_def] at e
    exact e
  have e : u = ((⟨u.x, 0, 0⟩ : Pt).toward ⟨0, u.y, 0⟩).toward ⟨0, 0, u.z⟩ := by
    simp only [Pt.toward]
    ext <;> simp
  conv_lhs => rw [e, hg, hg, line (fun a => ⟨a, 0, 0⟩) (by intro a b; simp [Pt.toward]),
    line (fun a => ⟨0, a, 0⟩) (by intro a b; simp [Pt.toward]), line (fun a => ⟨0, 0, a⟩) (by intro a b; simp [Pt.toward])]
  rfl

/-- The values on the edges. -/
def edgeValues (B : Pt → Pt → ℝ) : Gram :=
  ⟨B edgeA edgeA, B edgeB edgeB, B edgeC edgeC, B edgeB edgeC, B edgeC edgeA, B edgeA edgeB⟩

theorem IsForm.eq_prod {B : Pt → Pt → ℝ} (h : IsForm B) (u v : Pt) :
    B u v = (edgeValues B).prod u.x u.y u.z v.x v.y v.z := by
  have second : ∀ w (u u' : Pt), B w (u.toward u') = B w u + B w u' := by
    intro w u u'
    rw [h.symm, h.first, h.symm u, h.symm u']
  rw [additive_lin (g := fun u => B u v) (fun u u' => h.first u u' v) u, additive_lin (second edgeA) v,
    additive_lin (second edgeB) v, additive_lin (second edgeC) v]
  simp only [Gram.prod, edgeValues]
  rw [h.symm edgeB edgeA, h.symm edgeC edgeB, h.symm edgeA edgeC]
  ring

/-- The rotation part multiplies the values on the edges by `e`. -/
def Gram.Scaled (g : Gram) (e : ℝ) (r : M3) : Prop :=
  g.prod r.m11 r.m21 r.m31 r.m11 r.m21 r.m31 = e * g.aa ∧ g.prod r.m12 r.m22 r.m32 r.m12 r.m22 r.m32 = e * g.bb ∧
  g.prod r.m13 r.m23 r.m33 r.m13 r.m23 r.m33 = e * g.cc ∧ g.prod r.m12 r.m22 r.m32 r.m13 r.m23 r.m33 = e * g.bc ∧
  g.prod r.m13 r.m23 r.m33 r.m11 r.m21 r.m31 = e * g.ca ∧ g.prod r.m11 r.m21 r.m31 r.m12 r.m22 r.m32 = e * g.ab

theorem IsForm.scaled_iff {B : Pt → Pt → ℝ} (h : IsForm B) (r : M3) (e : ℝ) :
    (∀ u v, B (r.turnDisp u) (r.turnDisp v) = e * B u v) ↔ (edgeValues B).Scaled e r := by
  constructor
  · intro hk
    have h1 := hk edgeA edgeA
    have h2 := hk edgeB edgeB
    have h3 := hk edgeC edgeC
    have h4 := hk edgeB edgeC
    have h5 := hk edgeC edgeA
    have h6 := hk edgeA edgeB
    rw [h.eq_prod (r.turnDisp _)] at h1 h2 h3 h4 h5 h6
    simp only [M3.turnDisp, edgeA, edgeB, edgeC, mul_one, mul_zero, add_zero, zero_add, Rat.cast_intCast] at h1 h2 h3 h4 h5 h6
    exact ⟨h1, h2, h3, h4, h5, h6⟩
  · rintro ⟨h1, h2, h3, h4, h5, h6⟩ u v
    rw [h.eq_prod, h.eq_prod u v]
    generalize edgeValues B = g at *
    simp only [M3.turnDisp]
    push_cast
    generalize (u.x : ℝ) = a
    generalize (u.y : ℝ) = b
    generalize (u.z : ℝ) = c
    generalize (v.x : ℝ) = a'
    generalize (v.y : ℝ) = b'
    generalize (v.z : ℝ) = c'
    simp only [Gram.prod] at *
    linear_combination a * a' * h1 + b * b' * h2 + c * c' * h3 + (b * c' + c * b') * h4 + (c * a' + a * c') * h5 +
      (a * b' + b * a') * h6

theorem scaled_one {g : Gram} {r : M3} : g.Scaled 1 r ↔ g.Kept r := by simp only [Gram.Scaled, Gram.Kept, one_mul]

/-! ## Second-rank tensors of the tabulated groups -/

theorem formKept_iff_symbols {n : HallSymbolNotation} {ms : List M4} (hms : n.seitzMatrices = some ms) {B : Pt → Pt → ℝ}
    (hB : IsForm B) : FormKept n B ↔ ∀ r ∈ ms.map M4.rot, (edgeValues B).Kept r := by
  constructor
  · intro h r hr
    obtain ⟨m, hm, rfl⟩ := List.mem_map.1 hr
    obtain ⟨s, hs, e⟩ := (seitzMatrices_mem hms).1 m hm
    have hgen := SpaceGroup.generator hs e
    rw [shifted_act] at hgen
    rw [← scaled_one, ← hB.scaled_iff]
    intro u v
    have := h _ hgen ⟨0, 0, 0⟩ u v
    simp only [turned_act] at this
    rw [this, one_mul]
  · intro h
    have : TensorKept n fun u v _ => B u v := by
      refine tensorKept_of_gens hms fun m hm u v _ => ?_
      unfold HallSymbolNotation.gens at hm
      rcases List.mem_append.1 hm with hm | hm
      · split_ifs at hm
        · obtain rfl := List.mem_singleton.1 hm
          have := (hB.scaled_iff M4.inversion.rot 1).2 (by
            simp only [Gram.Scaled, Gram.prod, M4.inversion, M3.one, M3.map]
            norm_num) u v
          rw [this, one_mul]
        · cases hm
      · obtain ⟨g, hg, rfl⟩ := List.mem_map.1 hm
        have := (hB.scaled_iff g.rot 1).2 (scaled_one.2 (h _ (List.mem_map.2 ⟨g, hg, rfl⟩))) u v
        rw [one_mul] at this
        exact this
    exact fun f hf p u v => this f hf p u v ⟨0, 0, 0⟩

theorem formRow_sound {code h : String} (hr : cellRow code h = true) :
    ∃ n, HallSymbolNotation.tryFromStr h.toList = some n ∧ ∀ B, IsForm B → (FormKept n B ↔ ConventionalForm code B) := by
  unfold cellRow at hr
  split at hr
  · rename_i n hn
    refine ⟨n, hn, fun B hB => ?_⟩
    split at hr
    · rename_i ms hms
      obtain ⟨e, he, h⟩ := List.any_eq_true.1 hr
      rw [Bool.and_eq_true, decide_eq_true_eq, decide_eq_true_eq] at h
      rw [formKept_iff_symbols hms hB, ← h.2, cellForms_spec e he, h.1]
      unfold formOf ConventionalForm
      generalize systemOfNumber (spaceGroupNumber code) = sys
      cases sys <;> dsimp only
      · exact Iff.rfl
      · split_ifs <;> exact Iff.rfl
      · exact Iff.rfl
      · exact Iff.rfl
      · split_ifs <;> exact Iff.rfl
      · exact Iff.rfl
      · exact Iff.rfl
    · cases hr
  · cases hr

/-- C112. For every row of both tables: a symmetric second-rank tensor is left alone by all operations of the group exactly
when its values on the edges meet the relations of the row's crystal system. -/
theorem tabulated_form (code h : String) (hh : InTables code h) :
    ∃ n, HallSymbolNotation.tryFromStr h.toList = some n ∧ ∀ B, IsForm B → (FormKept n B ↔ ConventionalForm code B) := by
  rcases hh with ⟨i, h1, h2⟩ | ⟨i, h1, h2⟩
  · exact formRow_sound (List.all_eq_true.1 cellRows_full (code, h) (zip_get h1 h2))
  · exact formRow_sound (List.all_eq_true.1 cellRows_default (code, h) (zip_get h1 h2))

/-! ## Optical activity -/

theorem turnDisp_injective {r r' : M3} (h : ∀ u, r.turnDisp u = r'.turnDisp u) : r = r' := by
  have h1 := h ⟨1, 0, 0⟩
  have h2 := h ⟨0, 1, 0⟩
  have h3 := h ⟨0, 0, 1⟩
  simp only [M3.turnDisp, mul_one, mul_zero, add_zero, zero_add, Pt.mk.injEq, Int.cast_inj] at h1 h2 h3
  apply M3.ext <;> tauto

theorem turnDisp_mul (r r' : M3) (u : Pt) : (r.mul r').turnDisp u = r.turnDisp (r'.turnDisp u) := by
  simp only [M3.turnDisp, M3.mul]
  push_cast
  ext <;> simp only [] <;> ring

theorem turned_comp (f g : Pt → Pt) (p x : Pt) : turned (f ∘ g) p x = turned f (g p) (turned g p x) := by
  have : (g p).toward (turned g p x) = g (p.toward x) := by
    simp only [turned, Pt.toward]
    ext <;> simp only [] <;> ring
  simp only [turned, Function.comp_apply] at this ⊢
  rw [this]

/-- Values that change with the hand under the generators do so under the group. -/
theorem optical_of_gens {n : HallSymbolNotation} {ms : List M4} (hms : n.seitzMatrices = some ms) {B : Pt → Pt → ℝ}
    (h : ∀ m ∈ n.gens ms, ∀ u v, B (m.rot.turnDisp u) (m.rot.turnDisp v) = m.rot.det * B u v) {m : M4} (hm : SpaceGroup n m.act)
    (p u v : Pt) : B (turned m.act p u) (turned m.act p v) = m.rot.det * B u v := by
  have id_one : ∀ u, M3.one.turnDisp u = u := turn_one
  have key : ∀ f, SpaceGroup n f → ∃ r : M3, (∀ p u, turned f p u = r.turnDisp u) ∧
      ∀ u v, B (r.turnDisp u) (r.turnDisp v) = r.det * B u v := by
    intro f hf
    have one : ∀ u v, B (M3.one.turnDisp u) (M3.one.turnDisp v) = M3.one.det * B u v := by
      intro u v
      rw [id_one, id_one]
      simp [M3.one, M3.det]
    induction hf with
    | one =>
      refine ⟨M3.one, fun p u => ?_, one⟩
      rw [id_one]
      simp only [turned, Pt.toward, id]
      ext <;> simp only [] <;> ring
    | cell k =>
      refine ⟨M3.one, fun p u => ?_, one⟩
      rw [id_one]
      simp only [turned, Pt.toward, Pt.addCell]
      ext <;> simp only [] <;> ring
    | centring hv =>
      refine ⟨M3.one, fun p u => ?_, one⟩
      rw [id_one]
      simp only [turned, Pt.toward, Pt.addTwelfths]
      ext <;> simp only [] <;> ring
    | inversion hm =>
      refine ⟨M4.inversion.rot, fun p u => ?_, h M4.inversion (by
        unfold HallSymbolNotation.gens
        rw [if_pos hm]
        exact List.mem_append_left _ (List.mem_singleton.2 rfl))⟩
      rw [inversion_act, turned_act]
    | generator hs hg =>
      rename_i s g
      obtain ⟨g', hmem, e⟩ := (seitzMatrices_mem hms).2 s hs
      rw [hg] at e
      obtain rfl := Option.some.inj e
      refine ⟨g.rot, fun p u => ?_, h ⟨g.rot, _, V3.zero, 1⟩ (List.mem_append_right _ (List.mem_map.2 ⟨g, hmem, rfl⟩))⟩
      rw [shifted_act, turned_act]
    | comp _ _ ih1 ih2 =>
      obtain ⟨r, h1, h2⟩ := ih1
      obtain ⟨r', h1', h2'⟩ := ih2
      refine ⟨r.mul r', fun p u => ?_, fun u v => ?_⟩
      · rw [turned_comp, h1, h1', turnDisp_mul]
      · rw [turnDisp_mul, turnDisp_mul, h2, h2', M3.det_mul]
        push_cast
        ring
    | inv hf h1 h2 ih =>
      rename_i f g
      obtain ⟨r, e1, e2⟩ := ih
      obtain ⟨a, ea, -, -⟩ := (SpaceGroup.inv hf h1 h2).isOp
      have ra : ∀ u, r.turnDisp (a.rot.turnDisp u) = u := by
        intro u
        have := turned_comp f g ⟨0, 0, 0⟩ u
        rw [h1, e1, ea, turned_act] at this
        rw [← this]
        simp only [turned, Pt.toward, id]
        ext <;> simp only [] <;> ring
      have hmul : r.mul a.rot = M3.one := turnDisp_injective fun u => by rw [turnDisp_mul, ra, id_one]
      have hdet : r.det * a.rot.det = 1 := by
        rw [← M3.det_mul, hmul]; decide
      refine ⟨a.rot, fun p u => by rw [ea, turned_act], fun u v => ?_⟩
      have := e2 (a.rot.turnDisp u) (a.rot.turnDisp v)
      rw [ra, ra] at this
      rw [this]
      have hd : (a.rot.det : ℝ) * (r.det : ℝ) = 1 := by rw [mul_comm]; exact_mod_cast hdet
      rw [← mul_assoc, hd, one_mul]
  obtain ⟨r, h1, h2⟩ := key _ hm
  have : r = m.rot := turnDisp_injective fun u => by rw [← h1 p, turned_act]
  rw [h1, h1, h2, this]

theorem SameType.optical_le {n n' : HallSymbolNotation} (h : SameType n n') (hf : OpticallyActive n') : OpticallyActive n := by
  obtain ⟨B, ⟨t1, t2⟩, ⟨u0, v0, h0⟩, hk⟩ := hf
  obtain ⟨a, d, q, hd, ha, h⟩ := h
  obtain ⟨b, e, s, he, hb, h1, h2⟩ := changeOfBasis_inv a d q hd ha
  have c1 := fun x => congrFun h1 x
  have c2 := fun x => congrFun h2 x
  simp only [Function.comp_apply, id] at c1 c2
  have hd' : (d : ℚ) ≠ 0 := by exact_mod_cast hd.ne'
  have had : (a.det : ℚ) ≠ 0 := by exact_mod_cast ha.ne'
  let L : Pt → Pt := changeOfBasis a d ⟨0, 0, 0⟩
  have Ladd : ∀ u v, L (u.toward v) = (L u).toward (L v) := by
    intro u v
    simp only [L, changeOfBasis, Pt.toward]
    ext <;> simp only [] <;> ring
  have cadd : ∀ p u, changeOfBasis a d q (p.toward u) = (changeOfBasis a d q p).toward (L u) := by
    intro p u
    simp only [L, changeOfBasis, Pt.toward]
    ext <;> simp only [] <;> ring
  have Lsub : ∀ u v : Pt, L ⟨u.x - v.x, u.y - v.y, u.z - v.z⟩ = ⟨(changeOfBasis a d q u).x - (changeOfBasis a d q v).x,
      (changeOfBasis a d q u).y - (changeOfBasis a d q v).y, (changeOfBasis a d q u).z - (changeOfBasis a d q v).z⟩ := by
    intro u v
    simp only [L, changeOfBasis]
    ext <;> simp only [] <;> ring
  have Lsurj : ∀ u, ∃ v, L v = u := by
    intro u
    refine ⟨⟨(changeOfBasis b e s u).x - (changeOfBasis b e s ⟨0, 0, 0⟩).x, (changeOfBasis b e s u).y - (changeOfBasis b e s ⟨0, 0, 0⟩).y,
      (changeOfBasis b e s u).z - (changeOfBasis b e s ⟨0, 0, 0⟩).z⟩, ?_⟩
    rw [Lsub, c1, c1]
    ext <;> simp only [] <;> ring
  refine ⟨fun u v => B (L u) (L v), ⟨fun u v => t1 _ _, fun u u' v => by simp only [Ladd, t2]⟩, ?_, ?_⟩
  · obtain ⟨u, rfl⟩ := Lsurj u0
    obtain ⟨v, rfl⟩ := Lsurj v0
    exact ⟨u, v, h0⟩
  · intro m hm p u v
    have ef : changeOfBasis a d q ∘ m.act = (changeOfBasis a d q ∘ m.act ∘ changeOfBasis b e s) ∘ changeOfBasis a d q := by
      calc _ = (changeOfBasis a d q ∘ m.act) ∘ (changeOfBasis b e s ∘ changeOfBasis a d q) := by rw [h2]; rfl
        _ = _ := rfl
    have hf' := (h _ _ ef).1 hm
    obtain ⟨m', em, -, -⟩ := hf'.isOp
    rw [em] at hf'
    have tt : ∀ p x, L (turned m.act p x) = turned m'.act (changeOfBasis a d q p) (L x) := by
      intro p x
      rw [← em]
      simp only [turned, ← cadd, Function.comp_apply, c2, Lsub]
    have hdet : m'.rot.det = m.rot.det := by
      have hmul : a.mul m.rot = m'.rot.mul a := by
        refine turnDisp_injective fun u => ?_
        have := tt ⟨0, 0, 0⟩ u
        rw [turned_act, turned_act] at this
        rw [turnDisp_mul, turnDisp_mul]
        have hL : ∀ x : Pt, a.turnDisp x = ⟨d * (L x).x, d * (L x).y, d * (L x).z⟩ := by
          intro x
          simp only [L, changeOfBasis, M3.turnDisp, add_zero]
          ext <;> simp only [] <;> field_simp
        rw [hL (m.rot.turnDisp u), this, hL u]
        simp only [M3.turnDisp]
        ext <;> simp only [] <;> ring
      have := congrArg M3.det hmul
      rw [M3.det_mul, M3.det_mul, mul_comm] at this
      exact (mul_right_cancel₀ ha.ne' this).symm
    simp only [tt]
    rw [hk m' hf', hdet]

theorem SameType.optical {n n' : HallSymbolNotation} (h : SameType n n') : OpticallyActive n ↔ OpticallyActive n' :=
  ⟨h.symm.optical_le, h.optical_le⟩

/-- The rotation multiplies the coefficients by its determinant. -/
def scaledBy (b r : M3) : Bool := decide (r.transpose.mul (b.mul r) = b.map fun v => r.det * v)

/-- Symmetric, and not zero. -/
def goodForm (b : M3) : Bool :=
  decide (b.m12 = b.m21 ∧ b.m13 = b.m31 ∧ b.m23 = b.m32) && decide (b ≠ ⟨0, 0, 0, 0, 0, 0, 0, 0, 0⟩)

/-- The tensor with these coefficients. -/
def formWith (b : M3) (u v : Pt) : ℚ :=
  u.x * (b.turnDisp v).x + u.y * (b.turnDisp v).y + u.z * (b.turnDisp v).z

/-- A group allows optical activity if its generators change the sign of a tensor with the hand. -/
theorem optical_by_form {n : HallSymbolNotation} {ms : List M4} (hms : n.seitzMatrices = some ms) {b : M3}
    (hb : goodForm b = true) (h : ∀ m ∈ n.gens ms, scaledBy b m.rot = true) : OpticallyActive n := by
  unfold goodForm at hb
  rw [Bool.and_eq_true, decide_eq_true_eq, decide_eq_true_eq] at hb
  obtain ⟨⟨b1, b2, b3⟩, hne⟩ := hb
  have hadd : ∀ u u' v, formWith b (u.toward u') v = formWith b u v + formWith b u' v := by
    intro u u' v
    simp only [formWith, M3.turnDisp, Pt.toward]
    ring
  have hsym : ∀ u v, formWith b u v = formWith b v u := by
    intro u v
    simp only [formWith, M3.turnDisp, b1, b2, b3]
    ring
  refine ⟨fun u v => (formWith b u v : ℚ), ⟨fun u v => by rw [hsym], fun u u' v => by rw [hadd]; push_cast; rfl⟩, ?_,
    fun m hm p u v => optical_of_gens (B := fun u v => (formWith b u v : ℚ)) hms (fun m hm u v => ?_) hm p u v⟩
  · by_contra hcon
    push Not at hcon
    apply hne
    have hz : ∀ i ∈ unitVectors, ∀ j ∈ unitVectors, formWith b i.disp j.disp = 0 := by
      intro i _ j _
      exact_mod_cast hcon i.disp j.disp
    simp only [unitVectors, List.forall_mem_cons, List.not_mem_nil, false_imp_iff, implies_true, and_true, formWith, V3.disp,
      M3.turnDisp, Int.cast_one, Int.cast_zero, mul_one, mul_zero, zero_mul, one_mul, add_zero, zero_add, Int.cast_eq_zero] at hz
    apply M3.ext <;> tauto
  · have e := of_decide_eq_true (h m hm)
    have key : ∀ x y : Pt, formWith b (m.rot.turnDisp x) (m.rot.turnDisp y) =
        formWith (m.rot.transpose.mul (b.mul m.rot)) x y := by
      intro x y
      simp only [formWith, turnDisp_mul]
      simp only [M3.turnDisp, M3.transpose]
      ring
    have key2 : formWith (b.map fun v => m.rot.det * v) u v = m.rot.det * formWith b u v := by
      simp only [formWith, M3.turnDisp, M3.map]
      push_cast
      ring
    rw [key, e, key2]
    push_cast
    rfl

/-- A centre rules it out. -/
theorem not_optical_of_centre {n : HallSymbolNotation} (h : HasCentre n) : ¬ OpticallyActive n := by
  rintro ⟨B, hB, ⟨u, v, h0⟩, hk⟩
  obtain ⟨f, hf, m, hr, rfl⟩ := (hasCentre_iff n).1 h
  apply h0
  have := hk m hf ⟨0, 0, 0⟩ u v
  rw [turned_act, turned_act, hr, hB.eq_prod, hB.eq_prod u v] at this
  rw [hB.eq_prod]
  have e : M3.one.neg.det = -1 := by decide
  rw [e] at this
  simp only [M3.turnDisp, M3.one, M3.neg, Gram.prod] at this ⊢
  push_cast at this
  linarith

/-- Generators (of the classes 4mm, 3m, -6, 6mm, -62m and -43m) that leave no room for optical activity. -/
def inactive : List (List M3) := [
  [⟨0, -1, 0, 1, 0, 0, 0, 0, 1⟩, ⟨-1, 0, 0, 0, 1, 0, 0, 0, 1⟩],
  [⟨0, -1, 0, 1, -1, 0, 0, 0, 1⟩, ⟨0, -1, 0, -1, 0, 0, 0, 0, 1⟩],
  [⟨0, -1, 0, 1, -1, 0, 0, 0, 1⟩, ⟨0, 1, 0, 1, 0, 0, 0, 0, 1⟩],
  [⟨0, 0, 1, 1, 0, 0, 0, 1, 0⟩, ⟨0, 1, 0, 1, 0, 0, 0, 0, 1⟩],
  [⟨-1, 1, 0, -1, 0, 0, 0, 0, -1⟩],
  [⟨1, -1, 0, 1, 0, 0, 0, 0, 1⟩, ⟨0, 1, 0, 1, 0, 0, 0, 0, 1⟩],
  [⟨-1, 1, 0, -1, 0, 0, 0, 0, -1⟩, ⟨0, -1, 0, -1, 0, 0, 0, 0, -1⟩],
  [⟨-1, 1, 0, -1, 0, 0, 0, 0, -1⟩, ⟨0, 1, 0, 1, 0, 0, 0, 0, 1⟩],
  [⟨0, 1, 0, -1, 0, 0, 0, 0, -1⟩, ⟨1, 0, 0, 0, -1, 0, 0, 0, -1⟩, ⟨0, 0, 1, 1, 0, 0, 0, 1, 0⟩]]

set_option maxHeartbeats 4000000 in
theorem inactive_spec : ∀ e ∈ inactive, ∀ g : Gram, (∀ r ∈ e, g.Scaled r.det r) →
    g.aa = 0 ∧ g.bb = 0 ∧ g.cc = 0 ∧ g.bc = 0 ∧ g.ca = 0 ∧ g.ab = 0 := by
  unfold inactive
  repeat' (refine List.forall_mem_cons.2 ⟨?_, ?_⟩)
  all_goals first | exact fun e he => absurd he List.not_mem_nil | skip
  all_goals
    intro g
    simp only [List.forall_mem_cons, List.not_mem_nil, false_imp_iff, implies_true, and_true, Gram.Scaled, Gram.prod, M3.det,
      Int.cast_one, Int.cast_zero, Int.cast_neg]
    intro h
    norm_num at h
    try casesm* _ ∧ _
    refine ⟨?_, ?_, ?_, ?_, ?_, ?_⟩ <;> linarith

theorem not_optical_of_gens {n : HallSymbolNotation} {ms : List M4} (hms : n.seitzMatrices = some ms)
    (h : (n.gens ms).map M4.rot ∈ inactive) : ¬ OpticallyActive n := by
  rintro ⟨B, hB, ⟨u, v, h0⟩, hk⟩
  apply h0
  obtain ⟨z1, z2, z3, z4, z5, z6⟩ := inactive_spec _ h (edgeValues B) (by
    intro r hr
    obtain ⟨m, hm, rfl⟩ := List.mem_map.1 hr
    rw [← hB.scaled_iff]
    intro u v
    have := hk m (gens_inGroup hms m hm).2 ⟨0, 0, 0⟩ u v
    simpa only [turned_act] using this)
  rw [hB.eq_prod]
  simp only [Gram.prod, z1, z2, z3, z4, z5, z6]
  ring

/-- Six tensors; the generators of every row with optical activity change the sign of one with the hand. -/
def someForms : List M3 := [
  ⟨0, 0, 0, 0, 0, 0, 0, 0, 1⟩, ⟨0, 1, 0, 1, 0, 0, 0, 0, 0⟩, ⟨1, 0, 0, 0, 1, 0, 0, 0, 1⟩, ⟨0, 0, 0, 0, 0, 1, 0, 1, 0⟩,
  ⟨1, 0, 0, 0, -1, 0, 0, 0, 0⟩, ⟨0, 0, 1, 0, 0, 0, 1, 0, 0⟩]

theorem someForms_good : ∀ b ∈ someForms, goodForm b = true := by decide +kernel

/-- The row of the default table with number `k`: with optical activity, or with a centre, or with generators listed as
inactive. -/
def opticalRow (k : Nat) : Bool :=
  match HallSymbolNotation.tryFromStr (Data.defaultHallName.getD (k - 1) "").toList with
  | some n =>
    match n.seitzMatrices with
    | some ms =>
      bif opticalNumbers.any (fun r => Nat.ble r.1 k && Nat.ble k r.2) then
        someForms.any fun b => (n.gens ms).all fun m => scaledBy b m.rot
      else bif centricNumbers.any (fun r => Nat.ble r.1 k && Nat.ble k r.2) then true
      else decide ((n.gens ms).map M4.rot ∈ inactive)
    | none => false
  | none => false

set_option maxRecDepth 100000 in
theorem opticalRows : (List.range 230).all (fun i => opticalRow (i + 1)) = true := by decide +kernel

theorem optical_range : ∀ k, inRanges k opticalNumbers → 1 ≤ k ∧ k ≤ 230 := by
  intro k h
  simp only [inRanges, opticalNumbers, List.mem_cons, List.not_mem_nil, or_false, exists_eq_or_imp, exists_eq_left] at h
  omega

/-- C112. For every notation with general positions, consistent or not: the group leaves room for optical activity exactly
when its number is one of the 105. -/
theorem optical_iff_number {n : HallSymbolNotation} {g : GeneralPositions} (hg : HasPositions n g) :
    OpticallyActive n ↔ ∃ k, inRanges k opticalNumbers ∧ HasTypeNumber n k := by
  obtain ⟨k, hk, -⟩ := one_of_230_types hg
  rw [number_unique hg hk optical_range]
  have hcen := centre_iff_number hg
  rw [number_unique hg hk centric_range] at hcen
  obtain ⟨⟨l1, l2⟩, code, h, n', e1, e2, e3, e4, e5⟩ := hk
  have hrow := List.all_eq_true.1 opticalRows (k - 1) (List.mem_range.2 (by omega))
  rw [Nat.sub_add_cancel l1] at hrow
  unfold opticalRow at hrow
  have e3' : Data.defaultHallName[k - 1]? = some h := e3
  rw [List.getD_eq_getElem?_getD, e3', Option.getD_some, e4] at hrow
  simp only at hrow
  split at hrow
  · rename_i ms hms
    have hdec : ∀ l : List (Nat × Nat), l.any (fun r => Nat.ble r.1 k && Nat.ble k r.2) = true ↔ inRanges k l := by
      intro l
      simp only [List.any_eq_true, Bool.and_eq_true, Nat.ble_eq, inRanges]
    have h1 := hdec opticalNumbers
    have h2 := hdec centricNumbers
    cases hb : opticalNumbers.any (fun r => Nat.ble r.1 k && Nat.ble k r.2)
    · rw [hb] at hrow h1
      simp only [Bool.false_eq_true, false_iff] at h1
      refine iff_of_false ?_ h1
      cases hb2 : centricNumbers.any (fun r => Nat.ble r.1 k && Nat.ble k r.2)
      · rw [hb2] at hrow
        rw [e5.optical]
        exact not_optical_of_gens hms (of_decide_eq_true hrow)
      · exact not_optical_of_centre (hcen.2 (h2.1 hb2))
    · rw [hb] at hrow h1
      simp only [true_iff] at h1
      refine iff_of_true ?_ h1
      rw [e5.optical]
      obtain ⟨t, ht, h⟩ := List.any_eq_true.1 hrow
      exact optical_by_form hms (someForms_good t ht) fun m hm => List.all_eq_true.1 h m hm
  · cases hrow

/-- `P -2y` (class m) has a plane and still leaves room for optical activity; `P 4 -2` and `-P 1` do not. -/
example : HasPositions (hall "P -2y") (positionsOf "P -2y") ∧ OpticallyActive (hall "P -2y") ∧
    HasPositions (hall "P 4 -2") (positionsOf "P 4 -2") ∧ ¬ OpticallyActive (hall "P 4 -2") ∧ ¬ OpticallyActive (hall "-P 1") := by
  refine ⟨positionsOf_spec (by decide +kernel), ?_, positionsOf_spec (by decide +kernel), ?_, ?_⟩
  · exact optical_by_form (ms := (hall "P -2y").seitzMatrices.getD []) (by decide +kernel) (b := ⟨0, 1, 0, 1, 0, 0, 0, 0, 0⟩)
      (by decide +kernel) (by decide +kernel)
  · exact not_optical_of_gens (ms := (hall "P 4 -2").seitzMatrices.getD []) (by decide +kernel) (by decide +kernel)
  · exact not_optical_of_centre ⟨_, .inversion (by decide +kernel), ⟨0, 0, 0⟩, fun p => by simp⟩

/-- A tensor of a tabulated group, with different values on the edges: `P 2 2` in the row with code 16. -/
example : InTables "16" "P 2 2" ∧ IsForm (fun u v => (u.x * v.x + 2 * (u.y * v.y) + 3 * (u.z * v.z) : ℚ)) ∧
    ConventionalForm "16" (fun u v => (u.x * v.x + 2 * (u.y * v.y) + 3 * (u.z * v.z) : ℚ)) := by
  refine ⟨?_, ⟨fun u v => ?_, fun u u' v => ?_⟩, ?_⟩
  · exact .inr ⟨15, by decide +kernel, by decide +kernel⟩
  · push_cast; ring
  · simp only [Pt.toward]; push_cast; ring
  · have e : systemOfNumber (spaceGroupNumber "16") = .Orthorhombic := by decide +kernel
    unfold ConventionalForm
    rw [e]
    simp [edgeA, edgeB, edgeC]

end Verif
