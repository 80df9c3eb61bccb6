import Verif.Spec.HallGroup
import Verif.Proofs.Holohedry
import Verif.Props.Parsing
import Verif.Props.Symbols
import Verif.Props.Shift

/-! # A written Hall symbol and the group of its notation -/

namespace Verif

/-! ## The rotation of a symbol is unique -/

/-- The conditions of `HallRotation` that can be evaluated, with the sense of rotation tested on one vector. -/
def rotationTest (N : Nat) (v : V3) (R : M3) : Bool :=
  decide (R.det = 1) && decide (R.mulVec v = v) && decide (R.pow N = M3.one) &&
    (List.range N).all (fun j => j == 0 || decide (R.pow j ≠ M3.one)) &&
    (decide (N < 3) || decide (0 < V3.volume v ⟨1, 2, 4⟩ (R.mulVec ⟨1, 2, 4⟩)))

theorem unique_of_filter {α : Type} {L : List α} {p : α → Bool} (h : (L.filter p).length ≤ 1) {a b : α} (ha : a ∈ L)
    (hb : b ∈ L) (pa : p a = true) (pb : p b = true) : a = b := by
  have ha' := List.mem_filter.2 ⟨ha, pa⟩
  have hb' := List.mem_filter.2 ⟨hb, pb⟩
  match hl : L.filter p, h with
  | [], _ => rw [hl] at ha'; cases ha'
  | [c], _ =>
    rw [hl] at ha' hb'
    rw [List.mem_singleton.1 ha', List.mem_singleton.1 hb']
  | _ :: _ :: _, h => simp at h

/-- Relabelling of the edges: a, b, c become c, a, b. -/
def M3.turn (R : M3) : M3 := ⟨R.m22, R.m23, R.m21, R.m32, R.m33, R.m31, R.m12, R.m13, R.m11⟩

theorem turn_inj {R R' : M3} (h : R.turn = R'.turn) : R = R' := by
  simp only [M3.turn, M3.mk.injEq] at h
  ext <;> simp_all

theorem turn_turn_turn (R : M3) : R.turn.turn.turn = R := rfl

theorem preserves_x {R : M3} (h : R.Preserves (hexMetricAbout .X)) : R.turn.Hexagonal := by
  simp only [M3.Preserves, hexMetricAbout, M3.mul, M3.transpose, M3.mk.injEq] at h
  simp only [M3.Hexagonal, hexMetric, M3.turn, M3.mul, M3.transpose, M3.mk.injEq]
  obtain ⟨h1, h2, h3, h4, h5, h6, h7, h8, h9⟩ := h
  refine ⟨?_, ?_, ?_, ?_, ?_, ?_, ?_, ?_, ?_⟩ <;> linarith

theorem preserves_y {R : M3} (h : R.Preserves (hexMetricAbout .Y)) : R.turn.turn.Hexagonal := by
  simp only [M3.Preserves, hexMetricAbout, M3.mul, M3.transpose, M3.mk.injEq] at h
  simp only [M3.Hexagonal, hexMetric, M3.turn, M3.mul, M3.transpose, M3.mk.injEq]
  obtain ⟨h1, h2, h3, h4, h5, h6, h7, h8, h9⟩ := h
  refine ⟨?_, ?_, ?_, ?_, ?_, ?_, ?_, ?_, ?_⟩ <;> linarith

theorem preserves_one {R : M3} (h : R.Preserves M3.one) : R.Cubic := by
  unfold M3.Preserves at h
  rwa [M3.mul_one] at h

theorem test_of_rotation {R : M3} {N : Nat} {v : V3} (h1 : R.det = 1) (h2 : R.HasOrder N) (h3 : R.mulVec v = v)
    (h4 : 3 ≤ N → TurnsCounterClockwise R v) (hp : ¬ V3.Parallel ⟨1, 2, 4⟩ v) : rotationTest N v R = true := by
  unfold rotationTest
  simp only [Bool.and_eq_true, decide_eq_true_eq, List.all_eq_true, Bool.or_eq_true, beq_iff_eq, List.mem_range]
  refine ⟨⟨⟨⟨h1, h3⟩, h2.2.1⟩, fun j hj => ?_⟩, ?_⟩
  · by_cases h0 : j = 0
    · exact Or.inl h0
    · exact Or.inr (h2.2.2 j (by omega) hj)
  · by_cases h : N < 3
    · exact Or.inl h
    · exact Or.inr (h4 (by omega) _ hp)

/-- The axes of the notation. -/
def hallAxes : List V3 := [⟨1, 0, 0⟩, ⟨0, 1, 0⟩, ⟨0, 0, 1⟩, ⟨1, 1, 1⟩, ⟨0, 1, -1⟩, ⟨1, 0, -1⟩, ⟨1, -1, 0⟩, ⟨0, 1, 1⟩, ⟨1, 0, 1⟩, ⟨1, 1, 0⟩]

theorem cubic_tests : ∀ v ∈ hallAxes, ∀ N ∈ [2, 3, 4, 6], (cubicList.filter (rotationTest N v)).length ≤ 1 := by
  decide +kernel

theorem hex_tests : ∀ N ∈ [3, 6], (hexList.filter (rotationTest N ⟨0, 0, 1⟩)).length ≤ 1 ∧
    (hexList.filter (fun R => rotationTest N ⟨1, 0, 0⟩ R.turn.turn)).length ≤ 1 ∧
    (hexList.filter (fun R => rotationTest N ⟨0, 1, 0⟩ R.turn)).length ≤ 1 := by
  decide +kernel

theorem fold_number {f : NFold} (h1 : f ≠ .N1) (h0 : f ≠ .Invalid) : f.number ∈ [2, 3, 4, 6] := by
  cases f <;> first | exact absurd rfl h1 | exact absurd rfl h0 | decide

/-- There is at most one rotation of a given order about a given axis. -/
theorem hallRotation_unique {f : NFold} {d : Option V3} (h0 : f ≠ .Invalid) (hd : ∀ v, d = some v → v ∈ hallAxes) {R R' : M3}
    (h : HallRotation f d R) (h' : HallRotation f d R') : R = R' := by
  unfold HallRotation at h h'
  by_cases hf : f = .N1
  · rw [if_pos hf] at h h'; rw [h, h']
  rw [if_neg hf] at h h'
  obtain ⟨v, hv, a1, a2, a3, a4, a5⟩ := h
  obtain ⟨v', hv', b1, b2, b3, b4, b5⟩ := h'
  rw [hv] at hv'
  obtain rfl := Option.some.inj hv'
  have hax := hd v hv
  have hpar : ∀ v ∈ hallAxes, ¬ V3.Parallel ⟨1, 2, 4⟩ v := by unfold V3.Parallel; decide
  have ta := test_of_rotation a2 a3 a4 a5 (hpar v hax)
  have tb := test_of_rotation b2 b3 b4 b5 (hpar v hax)
  have hN := fold_number hf h0
  unfold hallMetric at a1 b1
  by_cases h36 : f = .N3 ∨ f = .N6
  · have hN' : f.number ∈ [3, 6] := by rcases h36 with rfl | rfl <;> decide
    obtain ⟨t1, t2, t3⟩ := hex_tests _ hN'
    rw [if_pos h36] at a1 b1
    by_cases hx : v = ⟨1, 0, 0⟩
    · rw [if_pos hx] at a1 b1
      subst hx
      exact turn_inj (unique_of_filter t2 ((hexagonal_iff_mem _).1 (preserves_x a1)) ((hexagonal_iff_mem _).1 (preserves_x b1))
        ta tb)
    rw [if_neg hx] at a1 b1
    by_cases hy : v = ⟨0, 1, 0⟩
    · rw [if_pos hy] at a1 b1
      subst hy
      exact turn_inj (turn_inj (unique_of_filter t3 ((hexagonal_iff_mem _).1 (preserves_y a1))
        ((hexagonal_iff_mem _).1 (preserves_y b1)) ta tb))
    rw [if_neg hy] at a1 b1
    by_cases hz : v = ⟨0, 0, 1⟩
    · rw [if_pos hz] at a1 b1
      subst hz
      exact unique_of_filter t1 ((hexagonal_iff_mem _).1 a1) ((hexagonal_iff_mem _).1 b1) ta tb
    rw [if_neg hz] at a1 b1
    exact unique_of_filter (cubic_tests v hax _ hN) ((cubic_iff_mem _).1 (preserves_one a1))
      ((cubic_iff_mem _).1 (preserves_one b1)) ta tb
  · rw [if_neg h36] at a1 b1
    exact unique_of_filter (cubic_tests v hax _ hN) ((cubic_iff_mem _).1 (preserves_one a1))
      ((cubic_iff_mem _).1 (preserves_one b1)) ta tb

/-! ## One symbol -/

theorem dir_principal {di : NFoldDiag} {ax : RotationAxis} {v : V3} (hd : axisDirection di ax = some v)
    (hv : v ∈ [(⟨1, 0, 0⟩ : V3), ⟨0, 1, 0⟩, ⟨0, 0, 1⟩]) : di = .None ∧ ax.direction = some v ∧ ax ≠ .Omitted := by
  revert hd hv
  cases di <;> cases ax <;> intro hd hv <;> cases hd <;> revert hv <;> decide

theorem dir_body {di : NFoldDiag} {ax : RotationAxis} (hd : axisDirection di ax = some ⟨1, 1, 1⟩) : di = .Asterisk := by
  revert hd
  cases di <;> cases ax <;> decide

theorem dir_face {di : NFoldDiag} {ax : RotationAxis} {v : V3} (hd : axisDirection di ax = some v)
    (hv : v ∈ [(⟨0, 1, -1⟩ : V3), ⟨1, 0, -1⟩, ⟨1, -1, 0⟩, ⟨0, 1, 1⟩, ⟨1, 0, 1⟩, ⟨1, 1, 0⟩]) :
    (di = .SingleQuote ∨ di = .DoubleQuote) ∧ ax ≠ .Omitted := by
  revert hd hv
  cases di <;> cases ax <;> intro hd hv <;> cases hd <;> revert hv <;> decide

/-- `m` is the matrix symbol of `w` with axis `d`. -/
structure Matches (wd : Written × Option V3) (m : MatrixSymbol) : Prop where
  minus : m.minusSign = wd.1.minus
  fold : m.nfoldBody = wd.1.fold
  sub : m.nfoldSub = wd.1.sub
  letters : m.translationSymbols = lettersOpt wd.1.letters
  axis : wd.1.fold ≠ .N1 → axisDirection m.nfoldDiag m.rotationAxis = wd.2

theorem rotationWritten_axes {w : Written} {d : Option V3} (h : RotationWritten w d) (hf : w.fold ≠ .N1) :
    ∃ v, d = some v ∧ v ∈ hallAxes := by
  unfold RotationWritten at h
  cases d with
  | none => exact absurd h hf
  | some v =>
    refine ⟨v, rfl, ?_⟩
    rcases h with h | h | ⟨_, rfl⟩ | ⟨_, h⟩
    · exact absurd h hf
    · revert h; unfold hallAxes; simp only [List.mem_cons, List.not_mem_nil, or_false]; tauto
    · decide
    · revert h; unfold hallAxes; simp only [List.mem_cons, List.not_mem_nil, or_false]; tauto

theorem hallRotation_of_matrix {f : NFold} {d : NFoldDiag} {a : RotationAxis} {r : M4} (hr : rotationMatrix f d a = some r)
    (hf : f ≠ .N1) : HallRotation f (axisDirection d a) r.rot := by
  obtain ⟨dir, hd, hi⟩ := rotation_denotes hr hf
  unfold HallRotation
  rw [if_neg hf]
  refine ⟨dir, hd, ?_, hi.proper, hi.order, hi.fixes, hi.sense⟩
  unfold M3.Preserves hallMetric
  revert hr hd
  cases f <;> cases d <;> cases a <;> intro hr hd <;> first
    | exact absurd rfl hf
    | (simp [rotationMatrix] at hr; done)
    | (simp only [rotationMatrix, Option.some.injEq] at hr
       simp only [axisDirection, RotationAxis.direction, Option.some.injEq] at hd
       subst hr
       subst hd
       decide)

theorem operation_exists {w : Written} {d : Option V3} {R : M3} (h : HallRotation w.fold d R) : ∃ f, HallOperation w d f :=
  ⟨_, R, h, fun _ => rfl⟩

/-- A symbol of the notation is accepted, and its matrix acts as the operation of the symbol up to whole cells. -/
theorem symbol_means {wd : Written × Option V3} {m : MatrixSymbol} (hm : Matches wd m) (hv : wd.1.Valid)
    (hr : RotationWritten wd.1 wd.2) (hs : ScrewWritten wd.1 wd.2) :
    ∃ g, m.seitzMatrix = some g ∧ (∃ f, HallOperation wd.1 wd.2 f) ∧
      ∀ f, HallOperation wd.1 wd.2 f → SameModCell f g.act := by
  obtain ⟨w, d⟩ := wd
  obtain ⟨sg, fo, su, di, ax, trs⟩ := m
  obtain ⟨h1, h2, h3, h4, h5⟩ := hm
  simp only [] at h1 h2 h3 h4 h5 hv hr hs
  subst h1 h2 h3 h4
  have h0 : w.fold ≠ .Invalid := hv.1
  -- acceptance
  have hacc : ∃ g, (⟨w.minus, w.fold, w.sub, di, ax, lettersOpt w.letters⟩ : MatrixSymbol).seitzMatrix = some g := by
    rw [symbol_accepted_iff]
    by_cases hf : w.fold = .N1
    · refine ⟨by simp only [hf]; exact .one _ _, Or.inl ?_⟩
      simp only [hf]; decide
    · have hd := h5 hf
      have hdir : ∀ v : V3, v ∈ [(⟨1, 0, 0⟩ : V3), ⟨0, 1, 0⟩, ⟨0, 0, 1⟩] → d = some v → di = .None ∧ ax ≠ .Omitted :=
        fun v hv hdv => ⟨(dir_principal (hd.trans hdv) hv).1, (dir_principal (hd.trans hdv) hv).2.2⟩
      refine ⟨?_, ?_⟩
      · unfold RotationWritten at hr
        cases d with
        | none => exact absurd hr hf
        | some v =>
          simp only [] at hr
          rcases hr with hr | hr | ⟨hr, rfl⟩ | ⟨hr, hv'⟩
          · exact absurd hr hf
          · obtain ⟨rfl, ha⟩ := hdir v hr rfl
            have h2 : 2 ≤ w.fold.number := by revert hf h0; cases w.fold <;> decide
            exact .principal h2 ha
          · simp only [hr]
            rw [dir_body hd]
            exact .body _
          · simp only [hr]
            obtain ⟨f1, f2⟩ := dir_face hd hv'
            exact .face f1 f2
      · rcases hs with hs | ⟨hs, hd'⟩
        · exact Or.inr (Or.inl hs)
        · refine Or.inr (Or.inr ⟨?_, hs⟩)
          rcases hd' with h | h | h
          · exact (hdir _ (by decide) h).2
          · exact (hdir _ (by decide) h).2
          · exact (hdir _ (by decide) h).2
  obtain ⟨g, hg⟩ := hacc
  refine ⟨g, hg, ?_⟩
  obtain ⟨r, hrm, hgr⟩ := seitzMatrix_rot hg
  obtain ⟨r', c, hr', hc, ht⟩ := seitzMatrix_tr hg
  rw [hrm] at hr'
  obtain rfl := Option.some.inj hr'
  simp only [] at hrm hgr ht
  have hrot : HallRotation w.fold d r.rot := by
    by_cases hf : w.fold = .N1
    · rw [hf] at hrm ⊢
      cases hrm
      unfold HallRotation
      rw [if_pos rfl]; rfl
    · rw [← h5 hf]
      exact hallRotation_of_matrix hrm hf
  refine ⟨operation_exists hrot, ?_⟩
  rintro f ⟨R, hR, hp⟩
  have hRr : R = r.rot := by
    by_cases hf : w.fold = .N1
    · unfold HallRotation at hR hrot
      rw [if_pos hf] at hR hrot
      rw [hR, hrot]
    · obtain ⟨v, hv1, hv2⟩ := rotationWritten_axes hr hf
      exact hallRotation_unique h0 (fun v' h' => by rw [hv1] at h'; cases h'; exact hv2) hR hrot
  subst hRr
  -- screw part
  have hscrew : ((c.tr.x : ℚ) / 12 = (w.sub.number / w.fold.number : ℚ) * (d.getD ⟨0, 0, 0⟩).x) ∧
      ((c.tr.y : ℚ) / 12 = (w.sub.number / w.fold.number : ℚ) * (d.getD ⟨0, 0, 0⟩).y) ∧
      ((c.tr.z : ℚ) / 12 = (w.sub.number / w.fold.number : ℚ) * (d.getD ⟨0, 0, 0⟩).z) := by
    have htr := (rotationMatrix_facts hrm).2.1
    rcases hs with hs | ⟨hs, hd'⟩
    · have hcr : c = r := by
        unfold setTransform at hc
        simp only [hs] at hc
        revert hc
        cases w.fold <;> simp only [screwComponent, Option.some.injEq, reduceCtorEq, false_imp_iff] <;> exact fun h => h.symm
      rw [hcr, htr, hs]
      simp [NFoldSub.number, V3.zero]
    · have hf : w.fold ≠ .N1 := by
        intro e; rw [e] at hs; revert hs; cases w.sub <;> decide
      have hd := h5 hf
      have h3 : 3 ≤ w.fold.number := by
        revert hs; cases w.fold <;> cases w.sub <;> decide
      obtain ⟨v, hv1⟩ : ∃ v, d = some v := by rcases hd' with h | h | h <;> exact ⟨_, h⟩
      have hax : ax.direction = some v := by
        rw [hv1] at hd hd'
        refine (dir_principal hd ?_).2.1
        simp only [Option.some.injEq] at hd'
        simp only [List.mem_cons, List.not_mem_nil, or_false]
        exact hd'
      obtain ⟨e1, k, hk⟩ := screw_part (s := ⟨w.minus, w.fold, w.sub, di, ax, lettersOpt w.letters⟩) hrm hc h3 hax
      simp only [] at e1 hk
      have hN : (w.fold.number : Int) ≠ 0 := by omega
      have hNQ : (w.fold.number : ℚ) ≠ 0 := by exact_mod_cast hN
      rw [hk, Int.mul_ediv_cancel_left _ hN] at e1
      have hkq : (w.sub.number : ℚ) / w.fold.number = k / 12 := by
        rw [div_eq_div_iff hNQ (by norm_num)]
        have : (12 * w.sub.number : ℚ) = w.fold.number * k := by exact_mod_cast hk
        linarith
      rw [hkq, e1, hv1]
      simp only [Option.getD_some, V3.smul_x, V3.smul_y, V3.smul_z]
      refine ⟨?_, ?_, ?_⟩ <;> push_cast <;> ring
  obtain ⟨c1, c2, c3⟩ := hscrew
  -- letters
  obtain ⟨k, hk⟩ : ∃ k : V3, (g.tr.x : ℚ) / 12 + k.x = c.tr.x / 12 + (totalShift w.letters).x ∧
      (g.tr.y : ℚ) / 12 + k.y = c.tr.y / 12 + (totalShift w.letters).y ∧
      (g.tr.z : ℚ) / 12 + k.z = c.tr.z / 12 + (totalShift w.letters).z := by
    unfold lettersOpt at ht
    by_cases hl : w.letters = []
    · rw [if_pos hl] at ht
      simp only [] at ht
      refine ⟨⟨0, 0, 0⟩, ?_⟩
      rw [hl, ht]
      simp [totalShift]
    · rw [if_neg hl] at ht
      simp only [] at ht
      obtain ⟨_, _, kx, hx⟩ := reduceTranslation_facts (sumTranslations w.letters).x
      obtain ⟨_, _, ky, hy⟩ := reduceTranslation_facts (sumTranslations w.letters).y
      obtain ⟨_, _, kz, hz⟩ := reduceTranslation_facts (sumTranslations w.letters).z
      obtain ⟨s1, s2, s3⟩ := sumTranslations_shift w.letters
      have ex : reduceTranslation (sumTranslations w.letters).x = (sumTranslations w.letters).x + 12 * kx := by omega
      have ey : reduceTranslation (sumTranslations w.letters).y = (sumTranslations w.letters).y + 12 * ky := by omega
      have ez : reduceTranslation (sumTranslations w.letters).z = (sumTranslations w.letters).z + 12 * kz := by omega
      refine ⟨⟨-kx, -ky, -kz⟩, ?_⟩
      rw [ht, ← s1, ← s2, ← s3]
      simp only [V3.add_x, V3.add_y, V3.add_z, V3.map_x, V3.map_y, V3.map_z, ex, ey, ez]
      refine ⟨?_, ?_, ?_⟩ <;> push_cast <;> ring
  obtain ⟨k1, k2, k3⟩ := hk
  refine ⟨k, fun p => ?_⟩
  rw [hp p, ← c1, ← c2, ← c3]
  cases hmin : w.minus
  · rw [hmin] at hgr
    simp only [Bool.false_eq_true, if_false] at hgr ⊢
    ext <;> simp only [M4.act, Pt.addCell, hgr] <;> linarith
  · rw [hmin] at hgr
    simp only [if_true] at hgr ⊢
    ext <;> simp only [M4.act, Pt.addCell, hgr, M3.map] <;> push_cast <;> linarith

/-! ## The axes of all symbols -/

theorem raw_fields (w : Written) : w.raw.minusSign = w.minus ∧ w.raw.nfoldBody = w.fold ∧ w.raw.nfoldSub = w.sub ∧
    w.raw.translationSymbols = lettersOpt w.letters := ⟨rfl, rfl, rfl, rfl⟩

theorem matches_of {w : Written} {d : Option V3} {m : MatrixSymbol} (h1 : m.minusSign = w.raw.minusSign)
    (h2 : m.nfoldBody = w.raw.nfoldBody) (h3 : m.nfoldSub = w.raw.nfoldSub)
    (h4 : m.translationSymbols = w.raw.translationSymbols)
    (h5 : w.fold ≠ .N1 → axisDirection m.nfoldDiag m.rotationAxis = d) : Matches (w, d) m := ⟨h1, h2, h3, h4, h5⟩

theorem restoreFirst_fields (m : MatrixSymbol) : (restoreFirst m).minusSign = m.minusSign ∧
    (restoreFirst m).nfoldBody = m.nfoldBody ∧ (restoreFirst m).nfoldSub = m.nfoldSub ∧
    (restoreFirst m).translationSymbols = m.translationSymbols := by
  unfold restoreFirst; split <;> exact ⟨rfl, rfl, rfl, rfl⟩

theorem restoreSecond_fields (p : NFold) (m : MatrixSymbol) : (restoreSecond p m).minusSign = m.minusSign ∧
    (restoreSecond p m).nfoldBody = m.nfoldBody ∧ (restoreSecond p m).nfoldSub = m.nfoldSub ∧
    (restoreSecond p m).translationSymbols = m.translationSymbols := by
  unfold restoreSecond
  split
  · split <;> exact ⟨rfl, rfl, rfl, rfl⟩
  · exact ⟨rfl, rfl, rfl, rfl⟩

theorem restoreThird_fields (m : MatrixSymbol) : (restoreThird m).minusSign = m.minusSign ∧
    (restoreThird m).nfoldBody = m.nfoldBody ∧ (restoreThird m).nfoldSub = m.nfoldSub ∧
    (restoreThird m).translationSymbols = m.translationSymbols := by
  unfold restoreThird; split <;> exact ⟨rfl, rfl, rfl, rfl⟩

/-- The axis of the matrix symbol, as the notation's direction. -/
def MatrixSymbol.dir (m : MatrixSymbol) : Option V3 := axisDirection m.nfoldDiag m.rotationAxis

theorem noDiagonal_iff {w : Written} (hf : w.fold ≠ .N1) : NoDiagonal w ↔ w.axis ≠ some .quote ∧ w.axis ≠ some .dquote :=
  ⟨fun h => h.resolve_left hf, Or.inr⟩

/-- A written direction that is not defined is only possible on a 1. -/
theorem defined_of {w : Written} {d : Option V3} (h : RotationWritten w d) (hf : w.fold ≠ .N1) : d ≠ none := by
  rintro rfl; exact hf h

theorem face_two {w : Written} {v : V3} (h : RotationWritten w (some v)) (hf : w.fold ≠ .N1)
    (hv : v ∈ [(⟨0, 1, -1⟩ : V3), ⟨1, 0, -1⟩, ⟨1, -1, 0⟩, ⟨0, 1, 1⟩, ⟨1, 0, 1⟩, ⟨1, 1, 0⟩]) : w.fold = .N2 := by
  rcases h with h | h | ⟨_, rfl⟩ | ⟨h, _⟩
  · exact absurd h hf
  · have key : ∀ v ∈ [(⟨1, 0, 0⟩ : V3), ⟨0, 1, 0⟩, ⟨0, 0, 1⟩],
        v ∉ [(⟨0, 1, -1⟩ : V3), ⟨1, 0, -1⟩, ⟨1, -1, 0⟩, ⟨0, 1, 1⟩, ⟨1, 0, 1⟩, ⟨1, 1, 0⟩] := by decide
    exact absurd hv (key v h)
  · exact absurd hv (by decide)
  · exact h

theorem quote_two {w : Written} {prev : Option V3} {a : AxisMark} (ha : a = .quote ∨ a = .dquote)
    (h : RotationWritten w (markedDirection prev a)) (hf : w.fold ≠ .N1) : w.fold = .N2 := by
  have hd := defined_of h hf
  cases hm : markedDirection prev a with
  | none => exact absurd hm hd
  | some v =>
    rw [hm] at h
    refine face_two h hf ?_
    rcases ha with rfl | rfl <;> simp only [markedDirection] at hm <;> split at hm
    all_goals first | (cases hm; decide) | skip
    all_goals split at hm
    all_goals first | (cases hm; decide) | skip
    all_goals split at hm
    all_goals first | (cases hm; decide) | cases hm

theorem first_axis {w : Written} (hf : w.fold ≠ .N1) (h : RotationWritten w (hallDirection 0 none w)) :
    (restoreFirst w.raw).dir = hallDirection 0 none w ↔ NoDiagonal w := by
  rw [noDiagonal_iff hf]
  have hd := defined_of h hf
  revert hd
  unfold MatrixSymbol.dir restoreFirst hallDirection
  cases ha : w.axis with
  | none => simp [Written.raw, ha, axisDirection, RotationAxis.direction, unmarkedDirection]
  | some a => cases a <;> simp [Written.raw, ha, AxisMark.raw, axisDirection, RotationAxis.direction, markedDirection]

theorem later_axis {w : Written} {place : Nat} {prev : Option (NFold × Option V3)} (hp : 3 ≤ place) (hf : w.fold ≠ .N1)
    (h : RotationWritten w (hallDirection place prev w)) :
    w.raw.dir = hallDirection place prev w ↔ NoDiagonal w := by
  rw [noDiagonal_iff hf]
  have hd := defined_of h hf
  revert hd
  unfold MatrixSymbol.dir hallDirection
  cases ha : w.axis with
  | none =>
    have e : unmarkedDirection place (prev.map (·.1)) w.fold = none := by
      unfold unmarkedDirection
      rw [if_neg (by omega), if_neg (by omega), if_neg (by omega), if_neg (by omega)]
    simp [e]
  | some a =>
    cases a <;> simp only [Written.raw, ha, AxisMark.raw, axisDirection, RotationAxis.direction, markedDirection] <;>
      intro hd <;> simp <;> (intro e; exact hd e.symm)

theorem third_axis {w : Written} {prev : Option (NFold × Option V3)} (hf : w.fold ≠ .N1)
    (h : RotationWritten w (hallDirection 2 prev w)) :
    (restoreThird w.raw).dir = hallDirection 2 prev w ↔ ThirdAsRead w := by
  unfold ThirdAsRead
  rw [noDiagonal_iff hf]
  have hd := defined_of h hf
  revert hd
  by_cases h3 : w.fold = .N3
  · have e : (restoreThird w.raw).dir = some ⟨1, 1, 1⟩ := by
      unfold restoreThird MatrixSymbol.dir
      rw [if_pos (show w.raw.nfoldBody = .N3 from h3)]
      rfl
    rw [e]
    cases ha : w.axis with
    | none =>
      intro _
      simp [hallDirection, ha, unmarkedDirection, h3]
    | some a =>
      have hq : ¬ (a = .quote ∨ a = .dquote) := by
        intro hq
        unfold hallDirection at h
        rw [ha] at h
        have := quote_two hq h hf
        rw [h3] at this
        cases this
      cases a <;> simp [hallDirection, ha, markedDirection, h3] at hq ⊢
  · have e : restoreThird w.raw = w.raw := by
      unfold restoreThird; rw [if_neg (show ¬ w.raw.nfoldBody = .N3 from h3)]
    rw [e]
    unfold MatrixSymbol.dir hallDirection
    cases ha : w.axis with
    | none =>
      have e : unmarkedDirection 2 (prev.map (·.1)) w.fold = none := by
        unfold unmarkedDirection
        rw [if_neg (by omega), if_neg (by omega), if_neg (by omega), if_neg (by simp [h3])]
      simp [e]
    | some a =>
      cases a <;> simp only [Written.raw, ha, AxisMark.raw, axisDirection, RotationAxis.direction, markedDirection] <;>
        intro hd <;> simp [h3] <;> (intro e; exact hd e.symm)

theorem second_axis {w0 w : Written} (h0 : w0.fold ≠ .Invalid) (hf : w.fold ≠ .N1)
    (h : RotationWritten w (hallDirection 1 (some (w0.fold, hallDirection 0 none w0)) w)) :
    (restoreSecond w0.fold w.raw).dir = hallDirection 1 (some (w0.fold, hallDirection 0 none w0)) w ↔ SecondAsRead w0 w := by
  have hd := defined_of h hf
  have hq : ∀ a, w.axis = some a → a = .quote ∨ a = .dquote → w.fold = .N2 := by
    intro a ha hq
    unfold hallDirection at h
    rw [ha] at h
    exact quote_two hq h hf
  unfold SecondAsRead
  simp only [noDiagonal_iff hf]
  revert hd
  clear h
  by_cases h2 : w.fold = .N2
  · clear hq
    unfold MatrixSymbol.dir hallDirection restoreSecond
    rw [if_pos (show w.raw.nfoldBody = .N2 from h2)]
    cases hp : w0.fold <;> first | exact absurd hp h0 | skip
    all_goals
      cases ha : w.axis with
      | none => simp [h2, Written.raw, ha, axisDirection, RotationAxis.direction, unmarkedDirection]
      | some a =>
        cases ha0 : w0.axis with
        | none => cases a <;> simp [h2, Written.raw, ha, AxisMark.raw, axisDirection, RotationAxis.direction,
            markedDirection, unmarkedDirection]
        | some a0 => cases a0 <;> cases a <;> simp [h2, Written.raw, ha, AxisMark.raw, axisDirection,
            RotationAxis.direction, markedDirection]
  · have e : restoreSecond w0.fold w.raw = w.raw := by
      unfold restoreSecond; rw [if_neg (show ¬ w.raw.nfoldBody = .N2 from h2)]
    rw [e, if_neg (by simp [h2]), if_neg (by simp [h2])]
    unfold MatrixSymbol.dir hallDirection
    cases ha : w.axis with
    | none =>
      have e : ∀ p, unmarkedDirection 1 p w.fold = none := by
        intro p
        unfold unmarkedDirection
        rw [if_neg (by omega), if_neg (by simp [h2]), if_neg (by simp [h2]), if_neg (by omega)]
      simp [e]
    | some a =>
      cases a <;> first
        | exact absurd (hq _ ha (Or.inl rfl)) h2
        | exact absurd (hq _ ha (Or.inr rfl)) h2
        | (simp [Written.raw, ha, AxisMark.raw, axisDirection, RotationAxis.direction, markedDirection])

end Verif
