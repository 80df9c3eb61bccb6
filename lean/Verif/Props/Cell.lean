import Verif.Spec.Cell
import Verif.Props.Tables
import Verif.Props.Polar

/-! # Unit cells and rigid motions (C109) -/

namespace Verif

/-- The six products of the edges of a cell. -/
structure Gram where
  aa : ℝ
  bb : ℝ
  cc : ℝ
  bc : ℝ
  ca : ℝ
  ab : ℝ

/-- The products of the edges. -/
noncomputable def UnitCell.gram (u : UnitCell) : Gram :=
  ⟨u.a ^ 2, u.b ^ 2, u.c ^ 2, u.b * u.c * Real.cos u.α, u.c * u.a * Real.cos u.β, u.a * u.b * Real.cos u.γ⟩

/-- The product of two vectors with these products of the edges. -/
def Gram.prod (g : Gram) (x y z x' y' z' : ℝ) : ℝ :=
  g.aa * x * x' + g.bb * y * y' + g.cc * z * z' + g.bc * (y * z' + z * y') + g.ca * (z * x' + x * z') + g.ab * (x * y' + y * x')

/-- The rotation part keeps the products of the edges. -/
def Gram.Kept (g : Gram) (r : M3) : Prop :=
  g.prod r.m11 r.m21 r.m31 r.m11 r.m21 r.m31 = g.aa ∧ g.prod r.m12 r.m22 r.m32 r.m12 r.m22 r.m32 = g.bb ∧
  g.prod r.m13 r.m23 r.m33 r.m13 r.m23 r.m33 = g.cc ∧ g.prod r.m12 r.m22 r.m32 r.m13 r.m23 r.m33 = g.bc ∧
  g.prod r.m13 r.m23 r.m33 r.m11 r.m21 r.m31 = g.ca ∧ g.prod r.m11 r.m21 r.m31 r.m12 r.m22 r.m32 = g.ab

theorem dist2_gram (u : UnitCell) (p q : Pt) : u.dist2 p q =
    u.gram.prod (q.x - p.x : ℚ) (q.y - p.y : ℚ) (q.z - p.z : ℚ) (q.x - p.x : ℚ) (q.y - p.y : ℚ) (q.z - p.z : ℚ) := by
  simp only [UnitCell.dist2, Gram.prod, UnitCell.gram]; ring

/-- Differences under an operation. -/
theorem act_diff (m : M4) (p q : Pt) :
    (((m.act q).x - (m.act p).x : ℚ) : ℝ) = m.rot.m11 * ((q.x - p.x : ℚ) : ℝ) + m.rot.m12 * ((q.y - p.y : ℚ) : ℝ) +
      m.rot.m13 * ((q.z - p.z : ℚ) : ℝ) ∧
    (((m.act q).y - (m.act p).y : ℚ) : ℝ) = m.rot.m21 * ((q.x - p.x : ℚ) : ℝ) + m.rot.m22 * ((q.y - p.y : ℚ) : ℝ) +
      m.rot.m23 * ((q.z - p.z : ℚ) : ℝ) ∧
    (((m.act q).z - (m.act p).z : ℚ) : ℝ) = m.rot.m31 * ((q.x - p.x : ℚ) : ℝ) + m.rot.m32 * ((q.y - p.y : ℚ) : ℝ) +
      m.rot.m33 * ((q.z - p.z : ℚ) : ℝ) := by
  simp only [M4.act]
  push_cast
  refine ⟨?_, ?_, ?_⟩ <;> ring

theorem kept_of_vec {g : Gram} {r : M3} (h : ∀ x y z : ℚ,
    g.prod (r.m11 * x + r.m12 * y + r.m13 * z) (r.m21 * x + r.m22 * y + r.m23 * z) (r.m31 * x + r.m32 * y + r.m33 * z)
      (r.m11 * x + r.m12 * y + r.m13 * z) (r.m21 * x + r.m22 * y + r.m23 * z) (r.m31 * x + r.m32 * y + r.m33 * z) =
    g.prod x y z x y z) : g.Kept r := by
  have h1 := h 1 0 0
  have h2 := h 0 1 0
  have h3 := h 0 0 1
  have h4 := h 0 1 1
  have h5 := h 1 0 1
  have h6 := h 1 1 0
  simp only [Rat.cast_one, Rat.cast_zero, mul_one, mul_zero, add_zero, zero_add] at h1 h2 h3 h4 h5 h6
  simp only [Gram.prod] at *
  refine ⟨?_, ?_, ?_, ?_, ?_, ?_⟩ <;> simp only [Gram.prod] <;> linarith

/-- An operation keeps all distances exactly when its rotation part keeps the products of the edges. -/
theorem keeps_iff (u : UnitCell) (m : M4) : (∀ p q, u.dist2 (m.act p) (m.act q) = u.dist2 p q) ↔ u.gram.Kept m.rot := by
  simp only [dist2_gram]
  generalize u.gram = g
  constructor
  · intro h
    refine kept_of_vec fun x y z => ?_
    have e := h ⟨0, 0, 0⟩ ⟨x, y, z⟩
    obtain ⟨ex, ey, ez⟩ := act_diff m ⟨0, 0, 0⟩ ⟨x, y, z⟩
    rw [ex, ey, ez] at e
    simp only [sub_zero] at e
    exact e
  · rintro ⟨h1, h2, h3, h4, h5, h6⟩ p q
    obtain ⟨ex, ey, ez⟩ := act_diff m p q
    rw [ex, ey, ez]
    generalize ((q.x - p.x : ℚ) : ℝ) = x
    generalize ((q.y - p.y : ℚ) : ℝ) = y
    generalize ((q.z - p.z : ℚ) : ℝ) = z
    simp only [Gram.prod] at *
    linear_combination x ^ 2 * h1 + y ^ 2 * h2 + z ^ 2 * h3 + 2 * y * z * h4 + 2 * z * x * h5 + 2 * x * y * h6

/-- The group is rigid exactly when the rotations of the symbols keep the products of the edges. -/
theorem rigid_iff_symbols {n : HallSymbolNotation} {ms : List M4} (hms : n.seitzMatrices = some ms) (u : UnitCell) :
    Rigid n u ↔ ∀ r ∈ ms.map M4.rot, u.gram.Kept r := by
  constructor
  · intro h r hr
    obtain ⟨m, hm, rfl⟩ := List.mem_map.1 hr
    obtain ⟨s, hs, e⟩ := (seitzMatrices_mem hms).1 m hm
    have hgen := SpaceGroup.generator hs e
    rw [shifted_act] at hgen
    have := (keeps_iff u _).1 (h _ hgen)
    exact this
  · intro h f hf
    induction hf with
    | one => intro p q; rfl
    | cell k => intro p q; simp only [UnitCell.dist2, Pt.addCell, add_sub_add_right_eq_sub]
    | centring _ => intro p q; simp only [UnitCell.dist2, Pt.addTwelfths, add_sub_add_right_eq_sub]
    | inversion _ =>
      intro p q
      simp only [UnitCell.dist2]
      push_cast
      ring
    | generator hs e =>
      rename_i s g
      obtain ⟨g', hmem, e'⟩ := (seitzMatrices_mem hms).2 s hs
      rw [e] at e'
      obtain rfl := Option.some.inj e'
      rw [shifted_act]
      exact (keeps_iff u _).2 (h _ (List.mem_map.2 ⟨_, hmem, rfl⟩))
    | comp _ _ ih1 ih2 => intro p q; simp only [Function.comp_apply]; rw [ih1, ih2]
    | inv _ h1 h2 ih =>
      intro p q
      rename_i f g _
      have c1 := fun x => congrFun h1 x
      simp only [Function.comp_apply, id] at c1
      rw [← ih, c1, c1]

/-! ## The forms of the cells -/

/-- The kinds of restriction. -/
inductive CellForm
  | tric | monoA | monoB | monoC | ortho | tetr | hexa | rhom | cubic
deriving DecidableEq

/-- The restriction on the products of the edges. -/
def CellForm.gram (g : Gram) : CellForm → Prop
  | .tric => True
  | .monoA => g.ca = 0 ∧ g.ab = 0
  | .monoB => g.bc = 0 ∧ g.ab = 0
  | .monoC => g.bc = 0 ∧ g.ca = 0
  | .ortho => g.bc = 0 ∧ g.ca = 0 ∧ g.ab = 0
  | .tetr => g.aa = g.bb ∧ g.bc = 0 ∧ g.ca = 0 ∧ g.ab = 0
  | .hexa => g.aa = g.bb ∧ g.bc = 0 ∧ g.ca = 0 ∧ 2 * g.ab = - g.aa
  | .rhom => (g.aa = g.bb ∧ g.bb = g.cc) ∧ g.bc = g.ca ∧ g.ca = g.ab
  | .cubic => (g.aa = g.bb ∧ g.bb = g.cc) ∧ g.bc = 0 ∧ g.ca = 0 ∧ g.ab = 0

/-- The rotations of the symbols of all tabulated rows, with the restriction they amount to. -/
def cellForms : List (CellForm × List M3) := [
  (.tric, [⟨1, 0, 0, 0, 1, 0, 0, 0, 1⟩]),
  (.monoB, [⟨-1, 0, 0, 0, 1, 0, 0, 0, -1⟩]),
  (.monoC, [⟨-1, 0, 0, 0, -1, 0, 0, 0, 1⟩]),
  (.monoA, [⟨1, 0, 0, 0, -1, 0, 0, 0, -1⟩]),
  (.monoB, [⟨1, 0, 0, 0, -1, 0, 0, 0, 1⟩]),
  (.monoC, [⟨1, 0, 0, 0, 1, 0, 0, 0, -1⟩]),
  (.monoA, [⟨-1, 0, 0, 0, 1, 0, 0, 0, 1⟩]),
  (.ortho, [⟨-1, 0, 0, 0, -1, 0, 0, 0, 1⟩, ⟨1, 0, 0, 0, -1, 0, 0, 0, -1⟩]),
  (.ortho, [⟨-1, 0, 0, 0, -1, 0, 0, 0, 1⟩, ⟨-1, 0, 0, 0, 1, 0, 0, 0, 1⟩]),
  (.ortho, [⟨1, 0, 0, 0, 1, 0, 0, 0, -1⟩, ⟨1, 0, 0, 0, -1, 0, 0, 0, -1⟩]),
  (.ortho, [⟨1, 0, 0, 0, 1, 0, 0, 0, -1⟩, ⟨-1, 0, 0, 0, 1, 0, 0, 0, 1⟩]),
  (.ortho, [⟨-1, 0, 0, 0, -1, 0, 0, 0, 1⟩, ⟨1, 0, 0, 0, -1, 0, 0, 0, -1⟩, ⟨-1, 0, 0, 0, -1, 0, 0, 0, -1⟩]),
  (.tetr, [⟨0, -1, 0, 1, 0, 0, 0, 0, 1⟩]),
  (.tetr, [⟨0, 1, 0, -1, 0, 0, 0, 0, -1⟩]),
  (.tetr, [⟨0, -1, 0, 1, 0, 0, 0, 0, 1⟩, ⟨-1, 0, 0, 0, -1, 0, 0, 0, -1⟩]),
  (.tetr, [⟨0, -1, 0, 1, 0, 0, 0, 0, 1⟩, ⟨1, 0, 0, 0, -1, 0, 0, 0, -1⟩]),
  (.tetr, [⟨0, -1, 0, 1, 0, 0, 0, 0, 1⟩, ⟨-1, 0, 0, 0, 1, 0, 0, 0, 1⟩]),
  (.tetr, [⟨0, 1, 0, -1, 0, 0, 0, 0, -1⟩, ⟨1, 0, 0, 0, -1, 0, 0, 0, -1⟩]),
  (.tetr, [⟨0, 1, 0, -1, 0, 0, 0, 0, -1⟩, ⟨-1, 0, 0, 0, 1, 0, 0, 0, 1⟩]),
  (.tetr, [⟨0, -1, 0, 1, 0, 0, 0, 0, 1⟩, ⟨1, 0, 0, 0, -1, 0, 0, 0, -1⟩, ⟨-1, 0, 0, 0, -1, 0, 0, 0, -1⟩]),
  (.hexa, [⟨0, -1, 0, 1, -1, 0, 0, 0, 1⟩]),
  (.rhom, [⟨0, 0, 1, 1, 0, 0, 0, 1, 0⟩]),
  (.hexa, [⟨0, -1, 0, 1, -1, 0, 0, 0, 1⟩, ⟨0, -1, 0, -1, 0, 0, 0, 0, -1⟩]),
  (.hexa, [⟨0, -1, 0, 1, -1, 0, 0, 0, 1⟩, ⟨0, 1, 0, 1, 0, 0, 0, 0, -1⟩]),
  (.rhom, [⟨0, 0, 1, 1, 0, 0, 0, 1, 0⟩, ⟨0, -1, 0, -1, 0, 0, 0, 0, -1⟩]),
  (.hexa, [⟨0, -1, 0, 1, -1, 0, 0, 0, 1⟩, ⟨0, -1, 0, -1, 0, 0, 0, 0, 1⟩]),
  (.hexa, [⟨0, -1, 0, 1, -1, 0, 0, 0, 1⟩, ⟨0, 1, 0, 1, 0, 0, 0, 0, 1⟩]),
  (.rhom, [⟨0, 0, 1, 1, 0, 0, 0, 1, 0⟩, ⟨0, 1, 0, 1, 0, 0, 0, 0, 1⟩]),
  (.hexa, [⟨1, -1, 0, 1, 0, 0, 0, 0, 1⟩]),
  (.hexa, [⟨-1, 1, 0, -1, 0, 0, 0, 0, -1⟩]),
  (.hexa, [⟨1, -1, 0, 1, 0, 0, 0, 0, 1⟩, ⟨0, -1, 0, -1, 0, 0, 0, 0, -1⟩]),
  (.hexa, [⟨1, -1, 0, 1, 0, 0, 0, 0, 1⟩, ⟨0, 1, 0, 1, 0, 0, 0, 0, 1⟩]),
  (.hexa, [⟨-1, 1, 0, -1, 0, 0, 0, 0, -1⟩, ⟨0, -1, 0, -1, 0, 0, 0, 0, -1⟩]),
  (.hexa, [⟨-1, 1, 0, -1, 0, 0, 0, 0, -1⟩, ⟨0, 1, 0, 1, 0, 0, 0, 0, 1⟩]),
  (.cubic, [⟨-1, 0, 0, 0, -1, 0, 0, 0, 1⟩, ⟨1, 0, 0, 0, -1, 0, 0, 0, -1⟩, ⟨0, 0, 1, 1, 0, 0, 0, 1, 0⟩]),
  (.cubic, [⟨-1, 0, 0, 0, -1, 0, 0, 0, 1⟩, ⟨1, 0, 0, 0, -1, 0, 0, 0, -1⟩, ⟨0, 0, 1, 1, 0, 0, 0, 1, 0⟩, ⟨-1, 0, 0, 0, -1, 0, 0, 0, -1⟩]),
  (.cubic, [⟨0, -1, 0, 1, 0, 0, 0, 0, 1⟩, ⟨1, 0, 0, 0, -1, 0, 0, 0, -1⟩, ⟨0, 0, 1, 1, 0, 0, 0, 1, 0⟩]),
  (.cubic, [⟨0, 1, 0, -1, 0, 0, 0, 0, -1⟩, ⟨1, 0, 0, 0, -1, 0, 0, 0, -1⟩, ⟨0, 0, 1, 1, 0, 0, 0, 1, 0⟩]),
  (.cubic, [⟨0, -1, 0, 1, 0, 0, 0, 0, 1⟩, ⟨1, 0, 0, 0, -1, 0, 0, 0, -1⟩, ⟨0, 0, 1, 1, 0, 0, 0, 1, 0⟩, ⟨-1, 0, 0, 0, -1, 0, 0, 0, -1⟩])]

set_option maxHeartbeats 4000000 in
theorem cellForms_spec : ∀ e ∈ cellForms, ∀ g : Gram, (∀ r ∈ e.2, g.Kept r) ↔ e.1.gram g := by
  unfold cellForms
  repeat' (refine List.forall_mem_cons.2 ⟨?_, ?_⟩)
  any_goals exact fun e he => by cases he
  all_goals
    intro g
    simp only [List.forall_mem_cons, List.not_mem_nil, false_imp_iff, implies_true, and_true, Gram.Kept, Gram.prod, CellForm.gram, Int.cast_one,
      Int.cast_zero, Int.cast_neg]
    constructor
    · intro h
      try casesm* _ ∧ _
      repeat' (first | trivial | refine ⟨?_, ?_⟩ | linarith)
    · intro h
      try casesm* _ ∧ _
      repeat' (first | refine ⟨?_, ?_⟩ | linarith)

/-- The restriction of a code. -/
def formOf (code : String) : CellForm :=
  match systemOfNumber (spaceGroupNumber code) with
  | .Triclinic => .tric
  | .Monoclinic => if 'a' ∈ code.toList then .monoA else if 'b' ∈ code.toList then .monoB else .monoC
  | .Orthorhombic => .ortho
  | .Tetragonal => .tetr
  | .Trigonal => if 'R' ∈ code.toList then .rhom else .hexa
  | .Hexagonal => .hexa
  | .Cubic => .cubic

theorem two_thirds {x : ℝ} (h0 : 0 < x) (h1 : x < Real.pi) : Real.cos x = -1 / 2 ↔ x = 2 * Real.pi / 3 := by
  have e : Real.cos (2 * Real.pi / 3) = -1 / 2 := by
    have : (2 * Real.pi / 3) = Real.pi - Real.pi / 3 := by ring
    rw [this, Real.cos_pi_sub, Real.cos_pi_div_three]
    norm_num
  rw [← e]
  constructor
  · intro h
    exact Real.injOn_cos ⟨h0.le, h1.le⟩ ⟨by positivity, by linarith [Real.pi_pos]⟩ h
  · rintro rfl; rfl

theorem right_angle {x : ℝ} (h0 : 0 < x) (h1 : x < Real.pi) : Real.cos x = 0 ↔ x = Real.pi / 2 := by
  rw [← Real.cos_pi_div_two]
  constructor
  · intro h
    exact Real.injOn_cos ⟨h0.le, h1.le⟩ ⟨by positivity, by linarith [Real.pi_pos]⟩ h
  · rintro rfl; rfl

/-- The restriction on the products is the one on lengths and angles. -/
theorem conventional_iff {u : UnitCell} (hu : u.Proper) (code : String) :
    (formOf code).gram u.gram ↔ ConventionalCell code u := by
  obtain ⟨ha, hb, hc, ⟨hα, hα'⟩, ⟨hβ, hβ'⟩, ⟨hγ, hγ'⟩⟩ := hu
  have e1 : u.gram.bc = 0 ↔ u.α = Real.pi / 2 := by
    rw [← right_angle hα hα']; simp [UnitCell.gram, hb.ne', hc.ne']
  have e2 : u.gram.ca = 0 ↔ u.β = Real.pi / 2 := by
    rw [← right_angle hβ hβ']; simp [UnitCell.gram, ha.ne', hc.ne']
  have e3 : u.gram.ab = 0 ↔ u.γ = Real.pi / 2 := by
    rw [← right_angle hγ hγ']; simp [UnitCell.gram, ha.ne', hb.ne']
  have sq : ∀ {x y : ℝ}, 0 < x → 0 < y → (x ^ 2 = y ^ 2 ↔ x = y) := fun h1 h2 => by
    rw [sq_eq_sq₀ h1.le h2.le]
  have e4 : u.gram.aa = u.gram.bb ↔ u.a = u.b := sq ha hb
  have e5 : u.gram.bb = u.gram.cc ↔ u.b = u.c := sq hb hc
  have e6 : u.a = u.b → (2 * u.gram.ab = - u.gram.aa ↔ u.γ = 2 * Real.pi / 3) := by
    intro e
    rw [← two_thirds hγ hγ']
    simp only [UnitCell.gram, ← e]
    have : u.a * u.a ≠ 0 := (mul_pos ha ha).ne'
    constructor
    · intro h
      apply mul_left_cancel₀ this
      linarith
    · intro h
      rw [h]; ring
  have e7 : u.a = u.b → u.b = u.c → (u.gram.bc = u.gram.ca ↔ u.α = u.β) := by
    intro h1 h2
    simp only [UnitCell.gram, h1, h2]
    have : u.c * u.c ≠ 0 := (mul_pos hc hc).ne'
    rw [mul_right_inj' this]
    exact ⟨fun h => Real.injOn_cos ⟨hα.le, hα'.le⟩ ⟨hβ.le, hβ'.le⟩ h, fun h => by rw [h]⟩
  have e8 : u.a = u.b → u.b = u.c → (u.gram.ca = u.gram.ab ↔ u.β = u.γ) := by
    intro h1 h2
    simp only [UnitCell.gram, h1, h2]
    have : u.c * u.c ≠ 0 := (mul_pos hc hc).ne'
    rw [mul_right_inj' this]
    exact ⟨fun h => Real.injOn_cos ⟨hβ.le, hβ'.le⟩ ⟨hγ.le, hγ'.le⟩ h, fun h => by rw [h]⟩
  have hex : (u.gram.aa = u.gram.bb ∧ u.gram.bc = 0 ∧ u.gram.ca = 0 ∧ 2 * u.gram.ab = - u.gram.aa) ↔
      u.a = u.b ∧ u.α = Real.pi / 2 ∧ u.β = Real.pi / 2 ∧ u.γ = 2 * Real.pi / 3 := by
    rw [e4, e1, e2]
    exact and_congr_right fun h => by rw [e6 h]
  unfold formOf ConventionalCell
  generalize systemOfNumber (spaceGroupNumber code) = sys
  cases sys <;> dsimp only
  · exact Iff.rfl
  · split_ifs
    · simp only [CellForm.gram]; rw [e2, e3]
    · simp only [CellForm.gram]; rw [e1, e3]
    · simp only [CellForm.gram]; rw [e1, e2]
  · simp only [CellForm.gram]; rw [e1, e2, e3]
  · simp only [CellForm.gram]; rw [e1, e2, e3, e4]
  · split_ifs
    · simp only [CellForm.gram]
      rw [e4, e5]
      exact and_congr_right fun h => by rw [e7 h.1 h.2, e8 h.1 h.2]
    · exact hex
  · exact hex
  · simp only [CellForm.gram]; rw [e1, e2, e3, e4, e5]

/-- The rotations of the symbols of a row are listed with the restriction of its code. -/
def cellRow (code h : String) : Bool :=
  match HallSymbolNotation.tryFromStr h.toList with
  | some n =>
    match n.seitzMatrices with
    | some ms => cellForms.any fun e => decide (e.1 = formOf code) && decide (e.2 = ms.map M4.rot)
    | none => false
  | none => false

set_option maxRecDepth 100000 in
theorem cellRows_full : (Data.numberAndChoice.zip Data.hallName).all (fun r => cellRow r.1 r.2) = true := by decide +kernel

set_option maxRecDepth 100000 in
theorem cellRows_default : (Data.defaultNumberAndChoice.zip Data.defaultHallName).all (fun r => cellRow r.1 r.2) = true := by
  decide +kernel

theorem cellRow_sound {code h : String} (hr : cellRow code h = true) :
    ∃ n, HallSymbolNotation.tryFromStr h.toList = some n ∧
      ∀ u : UnitCell, u.Proper → (Rigid n u ↔ ConventionalCell code u) := by
  unfold cellRow at hr
  split at hr
  · rename_i n hn
    refine ⟨n, hn, fun u hu => ?_⟩
    split at hr
    · rename_i ms hms
      obtain ⟨e, he, h⟩ := List.any_eq_true.1 hr
      rw [Bool.and_eq_true, decide_eq_true_eq, decide_eq_true_eq] at h
      rw [rigid_iff_symbols hms, ← h.2, cellForms_spec e he, h.1, conventional_iff hu]
    · cases hr
  · cases hr

theorem zip_get {l l' : List String} {i : Nat} {x y : String} (hx : l[i]? = some x) (hy : l'[i]? = some y) :
    (x, y) ∈ l.zip l' := by
  rw [List.mem_iff_getElem?]
  exact ⟨i, by rw [List.getElem?_zip_eq_some]; exact ⟨hx, hy⟩⟩

/-- C109. For every row of both tables: the operations of the group keep all distances in a cell exactly when the cell meets
the restrictions on lengths and angles listed for the row's number and setting. -/
theorem tabulated_cell (code h : String) (hh : InTables code h) :
    ∃ n, HallSymbolNotation.tryFromStr h.toList = some n ∧
      ∀ u : UnitCell, u.Proper → (Rigid n u ↔ ConventionalCell code u) := by
  rcases hh with ⟨i, h1, h2⟩ | ⟨i, h1, h2⟩
  · exact cellRow_sound (List.all_eq_true.1 cellRows_full (code, h) (zip_get h1 h2))
  · exact cellRow_sound (List.all_eq_true.1 cellRows_default (code, h) (zip_get h1 h2))

/-- C109. Rigidity can be read off the listed operations, consistent or not. -/
theorem rigid_iff_listed {n : HallSymbolNotation} {g : GeneralPositions} (hg : HasPositions n g) (u : UnitCell) :
    Rigid n u ↔ ∀ m ∈ g.corePositionSet, ∀ p q, u.dist2 (m.act p) (m.act q) = u.dist2 p q := by
  obtain ⟨hpg, -, -⟩ := core_rotations hg
  constructor
  · intro h m hm
    obtain ⟨f, hf, m', er, rfl⟩ := (hpg m.rot).2 ⟨m, hm, rfl⟩
    rw [keeps_iff, ← er, ← keeps_iff]
    exact h _ hf
  · intro h f hf
    obtain ⟨m, rfl, -, -⟩ := hf.isOp
    obtain ⟨c, hc, ec⟩ := (hpg m.rot).1 ⟨_, hf, m, rfl, rfl⟩
    rw [keeps_iff, ← ec, ← keeps_iff]
    exact h c hc

/-- Six whole numbers as products of edges, kept by a rotation. -/
def keptZ (aa bb cc bc ca ab : Int) (r : M3) : Bool :=
  let prod := fun (x y z x' y' z' : Int) =>
    aa * x * x' + bb * y * y' + cc * z * z' + bc * (y * z' + z * y') + ca * (z * x' + x * z') + ab * (x * y' + y * x')
  decide (prod r.m11 r.m21 r.m31 r.m11 r.m21 r.m31 = aa) && decide (prod r.m12 r.m22 r.m32 r.m12 r.m22 r.m32 = bb) &&
  decide (prod r.m13 r.m23 r.m33 r.m13 r.m23 r.m33 = cc) && decide (prod r.m12 r.m22 r.m32 r.m13 r.m23 r.m33 = bc) &&
  decide (prod r.m13 r.m23 r.m33 r.m11 r.m21 r.m31 = ca) && decide (prod r.m11 r.m21 r.m31 r.m12 r.m22 r.m32 = ab)

theorem kept_combine {r : M3} {aa bb cc bc ca ab aa' bb' cc' bc' ca' ab' : Int} (h : keptZ aa bb cc bc ca ab r = true)
    (h' : keptZ aa' bb' cc' bc' ca' ab' r = true) (A B : ℝ) :
    Gram.Kept ⟨A * aa + B * aa', A * bb + B * bb', A * cc + B * cc', A * bc + B * bc', A * ca + B * ca', A * ab + B * ab'⟩ r := by
  simp only [keptZ, Bool.and_eq_true, decide_eq_true_eq] at h h'
  obtain ⟨⟨⟨⟨⟨h1, h2⟩, h3⟩, h4⟩, h5⟩, h6⟩ := h
  obtain ⟨⟨⟨⟨⟨k1, k2⟩, k3⟩, k4⟩, k5⟩, k6⟩ := h'
  have c : ∀ {x y : Int}, x = y → (x : ℝ) = y := fun h => by exact_mod_cast h
  have h1 := c h1; have h2 := c h2; have h3 := c h3; have h4 := c h4; have h5 := c h5; have h6 := c h6
  have k1 := c k1; have k2 := c k2; have k3 := c k3; have k4 := c k4; have k5 := c k5; have k6 := c k6
  simp only [Int.cast_add, Int.cast_mul] at h1 h2 h3 h4 h5 h6 k1 k2 k3 k4 k5 k6
  simp only [Gram.Kept, Gram.prod]
  refine ⟨?_, ?_, ?_, ?_, ?_, ?_⟩
  · linear_combination A * h1 + B * k1
  · linear_combination A * h2 + B * k2
  · linear_combination A * h3 + B * k3
  · linear_combination A * h4 + B * k4
  · linear_combination A * h5 + B * k5
  · linear_combination A * h6 + B * k6

theorem rigid_of_pointGroup {n : HallSymbolNotation} {u : UnitCell} (h : ∀ r ∈ PointGroup n, u.gram.Kept r) : Rigid n u := by
  intro f hf
  obtain ⟨m, rfl, -, -⟩ := hf.isOp
  exact (keeps_iff u m).2 (h _ ⟨_, hf, m, rfl, rfl⟩)

/-- C109. For every notation with general positions, tabulated or not, consistent or not, the first symbol names cells that
fit: every hexagonal cell for a 6, or a 3 about a cell edge; every rhombohedral cell for a 3 about the body diagonal;
every cubic cell for any other. -/
theorem first_symbol_cell {n : HallSymbolNotation} {g : GeneralPositions} (hg : HasPositions n g) {s : MatrixSymbol}
    {rest : List MatrixSymbol} (hs : n.matrixSymbols = s :: rest) (u : UnitCell) :
    ((s.nfoldBody = .N6 ∨ s.nfoldBody = .N3 ∧ s.nfoldDiag ≠ .Asterisk) → u.a = u.b → u.α = Real.pi / 2 → u.β = Real.pi / 2 →
      u.γ = 2 * Real.pi / 3 → Rigid n u) ∧
    ((s.nfoldBody = .N3 ∧ s.nfoldDiag = .Asterisk) → u.a = u.b → u.b = u.c → u.α = u.β → u.β = u.γ → Rigid n u) ∧
    ((s.nfoldBody ≠ .N6 ∧ s.nfoldBody ≠ .N3) → u.a = u.b → u.b = u.c → u.α = Real.pi / 2 → u.β = Real.pi / 2 →
      u.γ = Real.pi / 2 → Rigid n u) := by
  have hfit := pointGroup_fits_cell hg
  unfold FitsFirstSymbol at hfit
  rw [hs] at hfit
  dsimp only at hfit
  have hex : ∀ r ∈ hexExplicit, keptZ 2 2 0 0 0 (-1) r = true ∧ keptZ 0 0 1 0 0 0 r = true := by decide +kernel
  have rho : ∀ r ∈ cubicExplicit, (r.mulVec ⟨1, 1, 1⟩ = ⟨1, 1, 1⟩ ∨ r.mulVec ⟨1, 1, 1⟩ = ⟨-1, -1, -1⟩) →
      keptZ 1 1 1 0 0 0 r = true ∧ keptZ 0 0 0 1 1 1 r = true := by decide +kernel
  have cub : ∀ r ∈ cubicExplicit, keptZ 1 1 1 0 0 0 r = true ∧ keptZ 0 0 0 0 0 0 r = true := by decide +kernel
  have c23 : Real.cos (2 * Real.pi / 3) = -1 / 2 := by
    have : (2 * Real.pi / 3) = Real.pi - Real.pi / 3 := by ring
    rw [this, Real.cos_pi_sub, Real.cos_pi_div_three]
    norm_num
  obtain ⟨a, b, c, α, β, γ⟩ := u
  dsimp only
  refine ⟨?_, ?_, ?_⟩
  · rintro h rfl rfl rfl rfl
    refine rigid_of_pointGroup fun r hr => ?_
    have hr := hfit r hr
    have hr : r.Hexagonal := by
      rcases h with h | ⟨h, h'⟩
      · rw [h] at hr; exact hr
      · rw [h] at hr
        split at hr <;> first | exact hr | simp_all
    obtain ⟨k1, k2⟩ := hex r (hex_mem_explicit hr)
    have := kept_combine k1 k2 (a ^ 2 / 2) (c ^ 2)
    convert this using 1
    simp only [UnitCell.gram, Real.cos_pi_div_two, c23, Gram.mk.injEq]
    push_cast
    refine ⟨?_, ?_, ?_, ?_, ?_, ?_⟩ <;> ring
  · rintro ⟨h, h'⟩ rfl rfl rfl rfl
    refine rigid_of_pointGroup fun r hr => ?_
    have hr := hfit r hr
    rw [h, h'] at hr
    obtain ⟨k1, k2⟩ := rho r (cubic_mem_explicit hr.1) hr.2
    have := kept_combine k1 k2 (a ^ 2) (a * a * Real.cos α)
    convert this using 1
    simp only [UnitCell.gram, Gram.mk.injEq]
    push_cast
    refine ⟨?_, ?_, ?_, ?_, ?_, ?_⟩ <;> ring
  · rintro ⟨h, h'⟩ rfl rfl rfl rfl rfl
    refine rigid_of_pointGroup fun r hr => ?_
    have hr := hfit r hr
    have hr : r.Cubic := by
      split at hr <;> first | exact hr | simp_all
    obtain ⟨k1, k2⟩ := cub r (cubic_mem_explicit hr)
    have := kept_combine k1 k2 (a ^ 2) 0
    convert this using 1
    simp only [UnitCell.gram, Real.cos_pi_div_two, Gram.mk.injEq]
    push_cast
    refine ⟨?_, ?_, ?_, ?_, ?_, ?_⟩ <;> ring

/-- A proper cell for the hypotheses above, and a code for each: `146:R` and a rhombohedral cell. -/
example : (⟨1, 1, 1, 1, 1, 1⟩ : UnitCell).Proper ∧ InTables "146:R" "P 3*" ∧ ConventionalCell "146:R" ⟨1, 1, 1, 1, 1, 1⟩ ∧
    ¬ ConventionalCell "146:R" ⟨1, 1, 2, 1, 1, 1⟩ := by
  have hp : (1 : ℝ) < Real.pi := by linarith [Real.two_le_pi]
  have e1 : systemOfNumber (spaceGroupNumber "146:R") = .Trigonal := by decide +kernel
  have e2 : 'R' ∈ "146:R".toList := by decide +kernel
  refine ⟨⟨by norm_num, by norm_num, by norm_num, ⟨by norm_num, hp⟩, ⟨by norm_num, hp⟩, ⟨by norm_num, hp⟩⟩, ?_, ?_, ?_⟩
  · exact .inl ⟨Data.numberAndChoice.idxOf "146:R", by decide +kernel, by decide +kernel⟩
  · unfold ConventionalCell; rw [e1]; dsimp only; rw [if_pos e2]; simp
  · unfold ConventionalCell; rw [e1]; dsimp only; rw [if_pos e2]; simp

/-- A notation in no table. -/
example : HasPositions (hall "P 6 (1 2 3)") (positionsOf "P 6 (1 2 3)") ∧
    (hall "P 6 (1 2 3)").matrixSymbols = [⟨false, .N6, .None, .None, .Z, none⟩] :=
  ⟨positionsOf_spec (by decide +kernel), by decide +kernel⟩

end Verif
