import Mathlib.Tactic.Linarith
import Mathlib.Algebra.BigOperators.Group.List.Basic
import Verif.Proofs.SymbolFacts
import Verif.Proofs.Restriction
import Verif.Proofs.Iterate
import Verif.Spec.Symbol

/-! # Properties of matrix symbols (C24-C28) -/

namespace Verif

/-- Sample: `-41bw` about y. -/
def sampleS : MatrixSymbol := ⟨true, .N4, .N1, .None, .Y, some [.B, .W]⟩

/-- C24. Exactly which matrix symbols denote an operation, and the shape of the operation. -/
theorem symbol_accepted_iff (s : MatrixSymbol) :
    (∃ m, s.seitzMatrix = some m) ↔
      AllowedRotation s.nfoldBody s.nfoldDiag s.rotationAxis ∧ AllowedSubscript s.nfoldBody s.nfoldSub s.rotationAxis := by
  obtain ⟨sg, f, sub, d, a, trs⟩ := s
  have hsub : (∃ m, (⟨sg, f, sub, d, a, trs⟩ : MatrixSymbol).seitzMatrix = some m) ↔
      (rotationMatrix f d a).isSome ∧ (setTransform ⟨sg, f, sub, d, a, trs⟩ M4.one).isSome := by
    unfold MatrixSymbol.seitzMatrix
    have hst : ∀ m, (setTransform ⟨sg, f, sub, d, a, trs⟩ m).isSome =
        (setTransform ⟨sg, f, sub, d, a, trs⟩ M4.one).isSome := by
      intro m
      unfold setTransform
      simp only []
      cases screwComponent f sub with
      | none => rfl
      | some o =>
        cases o with
        | none => rfl
        | some q => simp only []; cases axisColumn q a <;> rfl
    simp only []
    cases hr : rotationMatrix f d a with
    | none => simp
    | some r =>
      rw [← hst r]
      simp only []
      cases hc : setTransform ⟨sg, f, sub, d, a, trs⟩ r with
      | none => simp
      | some c => cases sg <;> simp
  rw [hsub]
  have hrot : (rotationMatrix f d a).isSome ↔ AllowedRotation f d a := by
    constructor
    · intro h
      cases f <;> cases d <;> cases a <;> first
        | (simp [rotationMatrix] at h; done)
        | exact .one _ _
        | exact .principal (by decide) (by decide)
        | exact .face (by decide) (by decide)
        | exact .body _
    · intro h
      cases h with
      | one => rfl
      | principal h1 h2 => cases f <;> cases a <;> first | rfl | exact absurd rfl h2 | exact absurd h1 (by decide)
      | face h1 h2 => rcases h1 with rfl | rfl <;> cases a <;> first | rfl | exact absurd rfl h2
      | body => rfl
  rw [hrot]
  refine and_congr_right fun hA => ?_
  have hf : f ≠ .Invalid := by
    rintro rfl
    cases hA with
    | principal h1 _ => exact absurd h1 (by decide)
  unfold AllowedSubscript setTransform
  cases f <;> cases sub <;> cases a <;> first
    | exact absurd rfl hf
    | (simp [screwComponent, axisColumn, NFold.number, NFoldSub.number]; done)

example : ∃ m, sampleS.seitzMatrix = some m ∧ m.tr ≠ V3.zero ∧ m.rot.det = -1 := ⟨_, rfl, by decide, by decide⟩

example : ¬ ∃ m, (⟨false, .N4, .N2, .None, .Z, none⟩ : MatrixSymbol).seitzMatrix = some m := by
  rw [symbol_accepted_iff]
  rintro ⟨_, h⟩
  revert h
  unfold AllowedSubscript
  decide

/-- C24. The operation has determinant +1 or -1 according to the minus sign, and last row `(0,0,0,1)`. -/
theorem symbol_shape {s : MatrixSymbol} {m : M4} (h : s.seitzMatrix = some m) :
    m.det = (if s.minusSign then -1 else 1) ∧ m.Affine := ⟨(seitzMatrix_affine h).2, (seitzMatrix_affine h).1⟩

/-- The rotation part of an accepted symbol. -/
theorem seitzMatrix_rot {s : MatrixSymbol} {m : M4} (h : s.seitzMatrix = some m) :
    ∃ r, rotationMatrix s.nfoldBody s.nfoldDiag s.rotationAxis = some r ∧
      m.rot = (if s.minusSign then r.rot.map (fun v => -v) else r.rot) := by
  obtain ⟨r, c, hr, hc, hg⟩ := seitzMatrix_some h
  refine ⟨r, hr, ?_⟩
  have hc' : c.rot = r.rot := by rcases setTransform_some hc with rfl | ⟨t, rfl⟩ <;> rfl
  by_cases hm : s.minusSign
  · rw [if_pos hm] at hg ⊢
    subst hg
    simp only [setInversion, (setTranslation_facts s c).1, hc']
  · rw [if_neg hm] at hg ⊢
    subst hg
    rw [(setTranslation_facts s c).1, hc']

/-- `R` is the rotation of order `N` about direction `d`, turning counter-clockwise by the `N`-th part of a turn. -/
structure IsRotation (R : M3) (N : Nat) (d : V3) : Prop where
  fixes : R.mulVec d = d
  nonzero : d ≠ V3.zero
  order : R.HasOrder N
  proper : R.det = 1
  sense : 3 ≤ N → TurnsCounterClockwise R d

theorem hasOrder_of_check {R : M3} {N : Nat} (h0 : 0 < N) (h1 : R.pow N = M3.one)
    (h2 : (List.range N).all (fun j => j == 0 || decide (R.pow j ≠ M3.one)) = true) : R.HasOrder N := by
  refine ⟨h0, h1, fun j hj hjn => ?_⟩
  have := List.all_eq_true.1 h2 j (List.mem_range.2 hjn)
  simp only [Bool.or_eq_true, decide_eq_true_eq, beq_iff_eq] at this
  rcases this with h | h
  · omega
  · exact h

/-- A value that is a sum of squares vanishing only for vectors parallel to the axis is positive off it. -/
theorem sense_of {R : M3} {d : V3} (h : ∀ v : V3, 0 ≤ V3.volume d v (R.mulVec v))
    (h' : ∀ v : V3, V3.volume d v (R.mulVec v) = 0 → v.Parallel d) : TurnsCounterClockwise R d := fun v hv =>
  lt_of_le_of_ne (h v) fun e => hv (h' v e.symm)

/-- Two squares (an anisotropic form in two variables). -/
theorem form_zero {x y : Int} (h : x * x - x * y + y * y = 0) : x = 0 ∧ y = 0 := by
  have h1 : (2 * x - y) * (2 * x - y) + 3 * (y * y) = 0 := by linear_combination 4 * h
  have h2 := mul_self_nonneg (2 * x - y)
  have h3 := mul_self_nonneg y
  have hy : y = 0 := by
    have : y * y = 0 := by linarith
    exact mul_self_eq_zero.1 this
  subst hy
  have : x * x = 0 := by linarith
  exact ⟨mul_self_eq_zero.1 this, rfl⟩

theorem form_nonneg (x y : Int) : 0 ≤ x * x - x * y + y * y := by
  nlinarith [mul_self_nonneg (2 * x - y), mul_self_nonneg y]

theorem square_zero {x y : Int} (h : x * x + y * y = 0) : x = 0 ∧ y = 0 := by
  have h2 := mul_self_nonneg x
  have h3 := mul_self_nonneg y
  exact ⟨mul_self_eq_zero.1 (by linarith), mul_self_eq_zero.1 (by linarith)⟩

theorem body_form {x y z : Int} (h : x * x + y * y + z * z - x * y - y * z - z * x = 0) : x = y ∧ y = z := by
  have h1 : (x - y) * (x - y) + ((y - z) * (y - z) + (z - x) * (z - x)) = 0 := by linear_combination 2 * h
  have a := mul_self_nonneg (x - y)
  have b := mul_self_nonneg (y - z)
  have c := mul_self_nonneg (z - x)
  have e1 := mul_self_eq_zero.1 (show (x - y) * (x - y) = 0 by linarith)
  have e2 := mul_self_eq_zero.1 (show (y - z) * (y - z) = 0 by linarith)
  omega

theorem rotation_denotes {f : NFold} {d : NFoldDiag} {a : RotationAxis} {m : M4} (hm : rotationMatrix f d a = some m)
    (hf : f ≠ .N1) : ∃ dir, axisDirection d a = some dir ∧ IsRotation m.rot f.number dir := by
  have hsense : 3 ≤ f.number → ∀ dir, axisDirection d a = some dir → TurnsCounterClockwise m.rot dir := by
    intro h3 dir hd
    cases f <;> cases d <;> cases a <;> first
      | exact absurd h3 (by decide)
      | (simp [rotationMatrix] at hm; done)
      | (simp only [rotationMatrix, Option.some.injEq] at hm
         subst hm
         simp only [axisDirection, RotationAxis.direction, Option.some.injEq] at hd
         subst hd
         refine sense_of (fun v => ?_) (fun v hv => ?_)
         · simp only [V3.volume, M3.mulVec, ofColumns]
           nlinarith [form_nonneg v.x v.y, form_nonneg v.y v.z, form_nonneg v.z v.x, mul_self_nonneg v.x,
             mul_self_nonneg v.y, mul_self_nonneg v.z, mul_self_nonneg (v.x - v.y), mul_self_nonneg (v.y - v.z),
             mul_self_nonneg (v.z - v.x)]
         · simp only [V3.volume, M3.mulVec, ofColumns] at hv
           simp only [V3.Parallel]
           first
             | (have h0 : v.x * v.x + v.y * v.y = 0 := by linarith
                obtain ⟨h1, h2⟩ := square_zero h0; rw [h1, h2]; simp; done)
             | (have h0 : v.y * v.y + v.z * v.z = 0 := by linarith
                obtain ⟨h1, h2⟩ := square_zero h0; rw [h1, h2]; simp; done)
             | (have h0 : v.z * v.z + v.x * v.x = 0 := by linarith
                obtain ⟨h1, h2⟩ := square_zero h0; rw [h1, h2]; simp; done)
             | (have h0 : v.x * v.x - v.x * v.y + v.y * v.y = 0 := by linarith
                obtain ⟨h1, h2⟩ := form_zero h0; rw [h1, h2]; simp; done)
             | (have h0 : v.y * v.y - v.y * v.z + v.z * v.z = 0 := by linarith
                obtain ⟨h1, h2⟩ := form_zero h0; rw [h1, h2]; simp; done)
             | (have h0 : v.z * v.z - v.z * v.x + v.x * v.x = 0 := by linarith
                obtain ⟨h1, h2⟩ := form_zero h0; rw [h1, h2]; simp; done)
             | (have h0 : v.x * v.x + v.y * v.y + v.z * v.z - v.x * v.y - v.y * v.z - v.z * v.x = 0 := by linarith
                obtain ⟨h1, h2⟩ := body_form h0; rw [h1, h2]; simp; done))
  cases f <;> cases d <;> cases a <;> first
    | exact absurd rfl hf
    | (simp [rotationMatrix] at hm; done)
    | (simp only [rotationMatrix, Option.some.injEq] at hm
       subst hm
       refine ⟨_, rfl, by decide, by decide, hasOrder_of_check (by decide) (by decide) (by decide), by decide, ?_⟩
       intro h3
       exact hsense h3 _ rfl)

/-- C25. The proper rotation of an accepted symbol (after removing the minus sign) is the counter-clockwise rotation of
the written order about the written axis; order 1 is the identity. -/
theorem symbol_rotation {s : MatrixSymbol} {m : M4} (h : s.seitzMatrix = some m) :
    (s.nfoldBody = .N1 → m.rot = if s.minusSign then M3.one.neg else M3.one) ∧
    (s.nfoldBody ≠ .N1 → ∃ dir, axisDirection s.nfoldDiag s.rotationAxis = some dir ∧
      IsRotation (if s.minusSign then m.rot.neg else m.rot) s.nfoldBody.number dir) := by
  obtain ⟨r, hr, hm⟩ := seitzMatrix_rot h
  constructor
  · intro h1
    rw [h1] at hr
    cases hr
    rw [hm]
    split <;> rfl
  · intro h1
    obtain ⟨dir, hd, hi⟩ := rotation_denotes hr h1
    refine ⟨dir, hd, ?_⟩
    rw [hm]
    split
    · have : (r.rot.map (fun v => -v)).neg = r.rot := by ext <;> simp [M3.map, M3.neg]
      rwa [this]
    · exact hi

example : ∃ m dir, sampleS.seitzMatrix = some m ∧ axisDirection sampleS.nfoldDiag sampleS.rotationAxis = some dir ∧
    IsRotation m.rot.neg 4 dir := by
  obtain ⟨dir, h1, h2⟩ := (symbol_rotation (s := sampleS) rfl).2 (by decide)
  exact ⟨_, dir, rfl, h1, h2⟩

theorem rotation_metric {f : NFold} {d : NFoldDiag} {a : RotationAxis} {m : M4} (hm : rotationMatrix f d a = some m) :
    ((f = .N1 ∨ f = .N2 ∨ f = .N4 ∨ d = .Asterisk) → m.rot.Cubic) ∧
    ((d = .None ∧ (f = .N1 ∨ f = .N2 ∨ f = .N3 ∨ f = .N6) ∧ (f = .N2 → a = .Z) ∨
       f = .N2 ∧ d ≠ .None ∧ a = .Z) → m.rot.Preserves (hexMetricAbout a)) := by
  unfold M3.Cubic M3.Preserves
  cases f <;> cases d <;> cases a <;> first
    | (simp [rotationMatrix] at hm; done)
    | (simp only [rotationMatrix, Option.some.injEq] at hm
       subst hm
       decide)

/-- C25. Metrics: orders 1, 2, 4 and the body diagonal are symmetries of a cubic cell; orders 3 and 6 about a principal
axis are symmetries of the hexagonal cell with that unique axis; so are 2, 2' and 2" about z for the usual hexagonal
cell. -/
theorem symbol_metric {s : MatrixSymbol} {m : M4} (h : s.seitzMatrix = some m) :
    ((s.nfoldBody = .N1 ∨ s.nfoldBody = .N2 ∨ s.nfoldBody = .N4 ∨ s.nfoldDiag = .Asterisk) → m.rot.Cubic) ∧
    (s.nfoldDiag = .None → (s.nfoldBody = .N3 ∨ s.nfoldBody = .N6) → m.rot.Preserves (hexMetricAbout s.rotationAxis)) ∧
    (s.nfoldBody = .N2 → s.rotationAxis = .Z → m.rot.Hexagonal) := by
  obtain ⟨r, hr, hm⟩ := seitzMatrix_rot h
  obtain ⟨h1, h2⟩ := rotation_metric hr
  have hneg : ∀ (R g : M3), R.Preserves g → (R.map (fun v => -v)).Preserves g := by
    intro R g hg
    unfold M3.Preserves at hg ⊢
    refine Eq.trans ?_ hg
    ext <;> simp [M3.map, M3.mul, M3.transpose] <;> ring
  have hone : ∀ R : M3, R.Cubic ↔ R.Preserves M3.one := by
    intro R
    unfold M3.Cubic M3.Preserves
    rw [M3.mul_one]
  rw [hm]
  refine ⟨fun hc => ?_, fun hd hf => ?_, fun hf ha => ?_⟩
  · have := h1 hc
    rw [hone] at this ⊢
    split
    · exact hneg _ _ this
    · exact this
  · have := h2 (Or.inl ⟨hd, by rcases hf with h | h <;> simp [h], by rcases hf with h | h <;> simp [h]⟩)
    split
    · exact hneg _ _ this
    · exact this
  · have hh : r.rot.Preserves (hexMetricAbout s.rotationAxis) := by
      apply h2
      by_cases hd : s.nfoldDiag = .None
      · left; exact ⟨hd, by simp [hf], fun _ => ha⟩
      · right; exact ⟨hf, hd, ha⟩
    rw [ha] at hh
    split
    · exact hneg _ _ hh
    · exact hh

example : (⟨false, .N6, .N1, .None, .X, none⟩ : MatrixSymbol).seitzMatrix =
    some ⟨⟨1, 0, 0, 0, 1, -1, 0, 1, 0⟩, ⟨2, 0, 0⟩, V3.zero, 1⟩ := rfl

/-! ## Translations -/

/-- The translation of an accepted symbol: the screw part plus the reduced sum of the letters. -/
theorem seitzMatrix_tr {s : MatrixSymbol} {m : M4} (h : s.seitzMatrix = some m) :
    ∃ r c, rotationMatrix s.nfoldBody s.nfoldDiag s.rotationAxis = some r ∧ setTransform s r = some c ∧
      m.tr = match s.translationSymbols with
        | some l => c.tr.add ((sumTranslations l).map reduceTranslation)
        | none => c.tr := by
  obtain ⟨r, c, hr, hc, hg⟩ := seitzMatrix_some h
  refine ⟨r, c, hr, hc, ?_⟩
  have : m.tr = (setTranslationFromSymbols s c).tr := by
    subst hg
    split <;> rfl
  rw [this]
  unfold setTranslationFromSymbols
  cases s.translationSymbols <;> rfl

/-- The letters written in a symbol. -/
def MatrixSymbol.letters (s : MatrixSymbol) : List TranslationSymbol := s.translationSymbols.getD []

theorem reduceTranslation_facts (v : Int) : 0 ≤ reduceTranslation v ∧ reduceTranslation v < 12 ∧
    (12 : Int) ∣ reduceTranslation v - v := by
  unfold reduceTranslation base
  have := tmod12_cases v
  simp only []
  split
  · split <;> omega
  · omega

theorem sumTranslations_aux (l : List TranslationSymbol) (acc : V3) :
    l.foldl (fun acc s => acc.add s.vector) acc = acc.add (sumTranslations l) := by
  unfold sumTranslations
  induction l generalizing acc with
  | nil => rw [List.foldl_nil, List.foldl_nil, V3.add_zero]
  | cons a l ih =>
    rw [List.foldl_cons, List.foldl_cons, ih, ih (V3.zero.add _), V3.zero_add, V3.add_assoc]

theorem sumTranslations_cons (a : TranslationSymbol) (l : List TranslationSymbol) :
    sumTranslations (a :: l) = a.vector.add (sumTranslations l) := by
  rw [sumTranslations, List.foldl_cons, sumTranslations_aux, V3.zero_add]

theorem sumTranslations_perm {l l' : List TranslationSymbol} (h : l.Perm l') : sumTranslations l = sumTranslations l' := by
  induction h with
  | nil => rfl
  | cons a _ ih => rw [sumTranslations_cons, sumTranslations_cons, ih]
  | swap a b l =>
    simp only [sumTranslations_cons]
    rw [← V3.add_assoc, ← V3.add_assoc, V3.add_comm b.vector]
  | trans _ _ ih1 ih2 => rw [ih1, ih2]

theorem vector_shift (s : TranslationSymbol) : ((s.vector.x : ℚ) / 12 = s.shift.x) ∧ ((s.vector.y : ℚ) / 12 = s.shift.y) ∧
    ((s.vector.z : ℚ) / 12 = s.shift.z) := by
  cases s <;> norm_num [TranslationSymbol.vector, TranslationSymbol.shift, V3.zero]

theorem sumTranslations_shift (l : List TranslationSymbol) :
    ((sumTranslations l).x : ℚ) / 12 = (totalShift l).x ∧ ((sumTranslations l).y : ℚ) / 12 = (totalShift l).y ∧
      ((sumTranslations l).z : ℚ) / 12 = (totalShift l).z := by
  induction l with
  | nil => simp [sumTranslations, totalShift, V3.zero]
  | cons a l ih =>
    obtain ⟨h1, h2, h3⟩ := ih
    obtain ⟨a1, a2, a3⟩ := vector_shift a
    rw [sumTranslations_cons]
    simp only [totalShift, List.map_cons, List.sum_cons, V3.add_x, V3.add_y, V3.add_z, Int.cast_add] at h1 h2 h3 ⊢
    refine ⟨?_, ?_, ?_⟩ <;> linarith

/-- C27. The letters of a symbol contribute the sum of their translations, modulo whole cells: the operation is the one
of the same symbol without letters, followed by that translation. -/
theorem letters_add {s : MatrixSymbol} {l : List TranslationSymbol} {m m0 : M4}
    (h : ({ s with translationSymbols := some l } : MatrixSymbol).seitzMatrix = some m)
    (h0 : ({ s with translationSymbols := none } : MatrixSymbol).seitzMatrix = some m0) :
    ∃ k : V3, ∀ p, m.act p = (⟨(m0.act p).x + (totalShift l).x, (m0.act p).y + (totalShift l).y,
      (m0.act p).z + (totalShift l).z⟩ : Pt).addCell k := by
  obtain ⟨r, c, hr, hc, ht⟩ := seitzMatrix_tr h
  obtain ⟨r0, c0, hr0, hc0, ht0⟩ := seitzMatrix_tr h0
  obtain ⟨q, hq, hm⟩ := seitzMatrix_rot h
  obtain ⟨q0, hq0, hm0⟩ := seitzMatrix_rot h0
  simp only [] at hr hr0 hq hq0 ht ht0 hm hm0
  rw [hr] at hr0 hq hq0
  cases hr0
  cases hq
  cases hq0
  have hcc : c = c0 := by
    have : setTransform { s with translationSymbols := some l } r = setTransform { s with translationSymbols := none } r := rfl
    rw [this, hc0] at hc
    exact (Option.some.inj hc).symm
  subst hcc
  have hrot : m.rot = m0.rot := by rw [hm, hm0]
  obtain ⟨_, _, kx, hx⟩ := reduceTranslation_facts (sumTranslations l).x
  obtain ⟨_, _, ky, hy⟩ := reduceTranslation_facts (sumTranslations l).y
  obtain ⟨_, _, kz, hz⟩ := reduceTranslation_facts (sumTranslations l).z
  obtain ⟨s1, s2, s3⟩ := sumTranslations_shift l
  refine ⟨⟨kx, ky, kz⟩, fun p => ?_⟩
  have ex : reduceTranslation (sumTranslations l).x = (sumTranslations l).x + 12 * kx := by omega
  have ey : reduceTranslation (sumTranslations l).y = (sumTranslations l).y + 12 * ky := by omega
  have ez : reduceTranslation (sumTranslations l).z = (sumTranslations l).z + 12 * kz := by omega
  rw [← s1, ← s2, ← s3]
  ext <;> simp only [M4.act, Pt.addCell, hrot, ht, ht0, V3.add_x, V3.add_y, V3.add_z, V3.map_x, V3.map_y, V3.map_z, ex, ey,
    ez] <;> push_cast <;> ring

/-- C27. Without a subscript the translation is already reduced to `0..12`. -/
theorem letters_reduced {s : MatrixSymbol} {m : M4} (h : s.seitzMatrix = some m) (hs : s.nfoldSub = .None) :
    (0 ≤ m.tr.x ∧ m.tr.x < 12) ∧ (0 ≤ m.tr.y ∧ m.tr.y < 12) ∧ (0 ≤ m.tr.z ∧ m.tr.z < 12) := by
  obtain ⟨r, c, hr, hc, ht⟩ := seitzMatrix_tr h
  have hz : c.tr = V3.zero := by
    rw [← (rotationMatrix_facts hr).2.1]
    unfold setTransform at hc
    rw [hs] at hc
    cases hf : s.nfoldBody <;> rw [hf] at hc <;> first
      | (simp [screwComponent] at hc; done)
      | (simp only [screwComponent, Option.some.injEq] at hc; rw [hc])
  rw [hz] at ht
  rw [ht]
  cases s.translationSymbols with
  | none => decide
  | some l =>
    simp only [V3.zero_add]
    have a := reduceTranslation_facts (sumTranslations l).x
    have b := reduceTranslation_facts (sumTranslations l).y
    have d := reduceTranslation_facts (sumTranslations l).z
    exact ⟨⟨a.1, a.2.1⟩, ⟨b.1, b.2.1⟩, ⟨d.1, d.2.1⟩⟩

/-- C27. The order of the letters is irrelevant. -/
theorem letters_order (s : MatrixSymbol) {l l' : List TranslationSymbol} (h : l.Perm l') :
    ({ s with translationSymbols := some l } : MatrixSymbol).seitzMatrix =
      ({ s with translationSymbols := some l' } : MatrixSymbol).seitzMatrix := by
  unfold MatrixSymbol.seitzMatrix
  have e : ∀ c, setTranslationFromSymbols { s with translationSymbols := some l } c =
      setTranslationFromSymbols { s with translationSymbols := some l' } c := by
    intro c
    simp only [setTranslationFromSymbols, sumTranslations_perm h]
  have e2 : ∀ r, setTransform { s with translationSymbols := some l } r =
      setTransform { s with translationSymbols := some l' } r := fun _ => rfl
  simp only [e, e2]

example : (⟨false, .N2, .None, .None, .Z, some [.A, .D, .N, .W]⟩ : MatrixSymbol).seitzMatrix =
    some ⟨⟨-1, 0, 0, 0, -1, 0, 0, 0, 1⟩, ⟨3, 9, 0⟩, V3.zero, 1⟩ := rfl

/-- The screw part of an accepted symbol about a principal axis. -/
theorem screw_part {s : MatrixSymbol} {r c : M4} (hr : rotationMatrix s.nfoldBody s.nfoldDiag s.rotationAxis = some r)
    (hc : setTransform s r = some c) (hf : 3 ≤ s.nfoldBody.number) {dir : V3}
    (hd : s.rotationAxis.direction = some dir) :
    c.tr = V3.smul (12 * s.nfoldSub.number / s.nfoldBody.number) dir ∧
      (s.nfoldBody.number : Int) ∣ 12 * s.nfoldSub.number := by
  have h0 := (rotationMatrix_facts hr).2.1
  unfold setTransform at hc
  revert hc hf hd
  cases s.nfoldBody <;> cases s.nfoldSub <;> cases s.rotationAxis <;> intro hc hf hd <;> first
    | (exact absurd hf (by decide))
    | (simp [screwComponent] at hc; done)
    | (simp [RotationAxis.direction] at hd; done)
    | (simp only [screwComponent, axisColumn, Option.some.injEq] at hc
       simp only [RotationAxis.direction, Option.some.injEq] at hd
       subst hc
       subst hd
       first
         | (rw [h0]; decide)
         | exact ⟨by dsimp only; decide, by decide⟩)

/-- C26, for orders 3, 4 and 6 and the accepted subscripts: a subscript `T` on an `N`-fold symbol about x, y or z
contributes the translation `T/N` along the axis, on top of the letters. (Missing: order 2 and the subscripts `42`
and `63`, see `screw_missing`.) -/
theorem screw_translation_partial {s : MatrixSymbol} {m m0 : M4} {dir : V3} (h : s.seitzMatrix = some m)
    (h0 : ({ s with nfoldSub := .None } : MatrixSymbol).seitzMatrix = some m0)
    (hf : 3 ≤ s.nfoldBody.number) (hd : s.rotationAxis.direction = some dir) (p : Pt) :
    m.act p = ⟨(m0.act p).x + dir.x * (s.nfoldSub.number / s.nfoldBody.number),
      (m0.act p).y + dir.y * (s.nfoldSub.number / s.nfoldBody.number),
      (m0.act p).z + dir.z * (s.nfoldSub.number / s.nfoldBody.number)⟩ := by
  obtain ⟨r, c, hr, hc, ht⟩ := seitzMatrix_tr h
  obtain ⟨r0, c0, hr0, hc0, ht0⟩ := seitzMatrix_tr h0
  obtain ⟨q, hq, hm⟩ := seitzMatrix_rot h
  obtain ⟨q0, hq0, hm0⟩ := seitzMatrix_rot h0
  simp only [] at hr hr0 hq hq0 ht ht0 hm hm0
  rw [hr] at hr0 hq hq0
  cases hr0
  cases hq
  cases hq0
  have hrot : m.rot = m0.rot := by rw [hm, hm0]
  obtain ⟨e1, k, hk⟩ := screw_part hr hc hf hd
  obtain ⟨e2, _⟩ := screw_part (s := { s with nfoldSub := .None }) hr hc0 hf hd
  have hN : (s.nfoldBody.number : Int) ≠ 0 := by omega
  have hNQ : (s.nfoldBody.number : ℚ) ≠ 0 := by exact_mod_cast hN
  have e3 : (12 * s.nfoldSub.number / s.nfoldBody.number : Int) = k := by
    rw [hk, Int.mul_ediv_cancel_left _ hN]
  rw [e3] at e1
  have e2' : c0.tr = V3.zero := by
    rw [e2]
    ext <;> simp [NFoldSub.number]
  have hkq : (s.nfoldSub.number : ℚ) / s.nfoldBody.number = k / 12 := by
    rw [div_eq_div_iff hNQ (by norm_num)]
    have : (12 * s.nfoldSub.number : ℚ) = s.nfoldBody.number * k := by exact_mod_cast hk
    linarith
  rw [hkq]
  have htr : m.tr = m0.tr.add (V3.smul k dir) := by
    rw [ht, ht0, e1, e2']
    cases s.translationSymbols with
    | none => simp only []; rw [V3.zero_add]
    | some l => simp only []; rw [V3.zero_add, V3.add_comm]
  ext <;> simp only [M4.act, hrot, htr, V3.add_x, V3.add_y, V3.add_z, V3.smul_x, V3.smul_y, V3.smul_z] <;> push_cast <;> ring

example : sampleS.seitzMatrix = some ⟨⟨0, 0, -1, 0, -1, 0, 1, 0, 0⟩, ⟨0, 9, 3⟩, V3.zero, 1⟩ ∧
    ({ sampleS with nfoldSub := .None } : MatrixSymbol).seitzMatrix =
      some ⟨⟨0, 0, -1, 0, -1, 0, 1, 0, 0⟩, ⟨0, 6, 3⟩, V3.zero, 1⟩ ∧ sampleS.rotationAxis.direction = some ⟨0, 1, 0⟩ :=
  ⟨rfl, rfl, rfl⟩

/-- C26. `N` applications of the screw operation `N_T` about x, y or z (no minus sign, no letters) are the translation by
`T` whole cells along the axis. (Missing: as above.) -/
theorem screw_power_partial {s : MatrixSymbol} {m : M4} {dir : V3} (h : s.seitzMatrix = some m)
    (hf : 3 ≤ s.nfoldBody.number) (hd : s.rotationAxis.direction = some dir) (hdiag : s.nfoldDiag = .None)
    (hminus : s.minusSign = false) (hl : s.translationSymbols = none) (p : Pt) :
    m.act^[s.nfoldBody.number] p = p.addCell (V3.smul s.nfoldSub.number dir) := by
  have key : m.rot.pow s.nfoldBody.number = M3.one ∧
      (HM.nsum m.rot s.nfoldBody.number).mulVec m.tr = V3.smul (12 * s.nfoldSub.number) dir := by
    obtain ⟨sg, f, sub, d, a, trs⟩ := s
    simp only [] at hf hd hdiag hminus hl
    subst hdiag hminus hl
    cases f <;> cases sub <;> cases a <;> first
      | (exact absurd hf (by decide))
      | (cases hd; done)
      | (cases h; done)
      | (cases hd; cases h; decide +kernel)
  rw [HM.act_iterate, key.1, key.2]
  ext <;> simp [M4.act, M3.one, V3.zero, V3.smul, Pt.addCell] <;> ring

example : (⟨false, .N6, .N5, .None, .Z, none⟩ : MatrixSymbol).seitzMatrix =
    some ⟨⟨1, -1, 0, 1, 0, 0, 0, 0, 1⟩, ⟨0, 0, 10⟩, V3.zero, 1⟩ := rfl

/-- C26 fails for `2_1` (the subscript is ignored) and for `4_2` and `6_3` (rejected). -/
theorem screw_missing :
    (∀ sg d a l, (⟨sg, .N2, .N1, d, a, l⟩ : MatrixSymbol).seitzMatrix = (⟨sg, .N2, .None, d, a, l⟩ : MatrixSymbol).seitzMatrix) ∧
    (∀ sg d a l, (⟨sg, .N4, .N2, d, a, l⟩ : MatrixSymbol).seitzMatrix = none) ∧
    (∀ sg d a l, (⟨sg, .N6, .N3, d, a, l⟩ : MatrixSymbol).seitzMatrix = none) := by
  refine ⟨fun _ _ _ _ => rfl, fun sg d a l => ?_, fun sg d a l => ?_⟩
  · unfold MatrixSymbol.seitzMatrix
    simp only [setTransform, screwComponent]
    cases rotationMatrix .N4 d a <;> rfl
  · unfold MatrixSymbol.seitzMatrix
    simp only [setTransform, screwComponent]
    cases rotationMatrix .N6 d a <;> rfl

/-- C26 also fails about the body diagonal: the translation of `3*1` is put along the principal axis, so that the third
power is not a whole-cell translation. -/
theorem screw_body_diagonal_wrong : ∃ m, (⟨false, .N3, .N1, .Asterisk, .Z, none⟩ : MatrixSymbol).seitzMatrix = some m ∧
    ¬ ∃ k : V3, ∀ p, m.act^[3] p = p.addCell k := by
  refine ⟨⟨⟨0, 0, 1, 1, 0, 0, 0, 1, 0⟩, ⟨0, 0, 4⟩, V3.zero, 1⟩, rfl, ?_⟩
  rintro ⟨k, hk⟩
  have := congrArg Pt.x (hk ⟨0, 0, 0⟩)
  simp [M4.act, Pt.addCell] at this
  have h3 : ((3 * k.x : Int) : ℚ) = 1 := by push_cast; linarith
  have : 3 * k.x = 1 := by exact_mod_cast h3
  omega

/-- C28. A minus sign negates the rotation part and keeps the translation. -/
theorem minus_is_inversion {s : MatrixSymbol} {m : M4}
    (h : ({ s with minusSign := false } : MatrixSymbol).seitzMatrix = some m) :
    ({ s with minusSign := true } : MatrixSymbol).seitzMatrix = some ⟨m.rot.neg, m.tr, V3.zero, 1⟩ := by
  have haff := (seitzMatrix_affine h).1
  unfold MatrixSymbol.seitzMatrix at h ⊢
  simp only [] at h ⊢
  cases hr : rotationMatrix s.nfoldBody s.nfoldDiag s.rotationAxis with
  | none => rw [hr] at h; cases h
  | some r =>
    rw [hr] at h
    simp only [] at h ⊢
    have e : setTransform { s with minusSign := true } r = setTransform { s with minusSign := false } r := rfl
    rw [e]
    cases hc : setTransform { s with minusSign := false } r with
    | none => rw [hc] at h; cases h
    | some c =>
      rw [hc] at h
      simp only [Bool.false_eq_true, if_false, Option.some.injEq] at h
      subst h
      simp only [if_true, Option.some.injEq]
      have hw := haff.2
      simp only [setInversion]
      rw [show (setTranslationFromSymbols { s with minusSign := true } c) =
        setTranslationFromSymbols { s with minusSign := false } c from rfl, hw]
      rfl

/-- C28, as maps: the symbol with a minus sign acts like the inversion at the origin followed by moving the translation
back in place. -/
theorem minus_act {s : MatrixSymbol} {m m' : M4}
    (h : ({ s with minusSign := false } : MatrixSymbol).seitzMatrix = some m)
    (h' : ({ s with minusSign := true } : MatrixSymbol).seitzMatrix = some m') (p : Pt) :
    m'.act p = m.act ⟨-p.x, -p.y, -p.z⟩ := by
  rw [minus_is_inversion h] at h'
  cases h'
  ext <;> simp [M4.act, M3.neg]

example : ({ sampleS with minusSign := false } : MatrixSymbol).seitzMatrix =
    some ⟨⟨0, 0, 1, 0, 1, 0, -1, 0, 0⟩, ⟨0, 9, 3⟩, V3.zero, 1⟩ := rfl

end Verif
