import Verif.Spec.AsRead
import Verif.Proofs.HallText

/-! # Text to group, for every text of the grammar -/

namespace Verif

/-! ## Which rotations exist -/

theorem no_rotation_tests : (∀ v ∈ [(⟨0, 1, -1⟩ : V3), ⟨1, 0, -1⟩, ⟨1, -1, 0⟩, ⟨0, 1, 1⟩, ⟨1, 0, 1⟩, ⟨1, 1, 0⟩], ∀ N ∈ [3, 4, 6],
      cubicList.filter (rotationTest N v) = []) ∧
    ∀ N ∈ [2, 4, 6], cubicList.filter (rotationTest N ⟨1, 1, 1⟩) = [] := by
  decide +kernel

theorem no_rotation {f : NFold} {v : V3} (hf : f ≠ .N1) (hv : v ∈ hallAxes) (he : v ∉ [(⟨1, 0, 0⟩ : V3), ⟨0, 1, 0⟩, ⟨0, 0, 1⟩])
    (hn : cubicList.filter (rotationTest f.number v) = []) : ¬ ∃ R, HallRotation f (some v) R := by
  rintro ⟨R, hR⟩
  unfold HallRotation at hR
  rw [if_neg hf] at hR
  obtain ⟨v', hv', a1, a2, a3, a4, a5⟩ := hR
  obtain rfl := Option.some.inj hv'
  have hm : hallMetric f v = M3.one := by
    unfold hallMetric
    simp only [List.mem_cons, List.not_mem_nil, or_false, not_or] at he
    rw [if_neg he.1, if_neg he.2.1, if_neg he.2.2, ite_self]
  rw [hm] at a1
  have hpar : ∀ v ∈ hallAxes, ¬ V3.Parallel ⟨1, 2, 4⟩ v := by unfold V3.Parallel; decide
  have := List.mem_filter.2 ⟨(cubic_iff_mem _).1 (preserves_one a1), test_of_rotation a2 a3 a4 a5 (hpar v hv)⟩
  rw [hn] at this
  cases this

/-- A rotation of the written order about the direction exists exactly for the combinations the library knows. -/
theorem rotation_exists_iff {f : NFold} {d : NFoldDiag} {a : RotationAxis} (h0 : f ≠ .Invalid) :
    (∃ R, HallRotation f (axisDirection d a) R) ↔ AllowedRotation f d a := by
  constructor
  · intro h
    by_cases hf : f = .N1
    · rw [hf]; exact .one _ _
    · have hsome : ∃ v, axisDirection d a = some v := by
        obtain ⟨R, hR⟩ := h
        unfold HallRotation at hR
        rw [if_neg hf] at hR
        obtain ⟨v, hv, _⟩ := hR
        exact ⟨v, hv⟩
      obtain ⟨v, hv⟩ := hsome
      rw [hv] at h
      obtain ⟨t1, t2⟩ := no_rotation_tests
      revert h hv
      cases d
      · intro h hv
        refine .principal (by revert hf h0; cases f <;> decide) ?_
        rintro rfl
        cases hv
      · cases a <;> intro h hv <;> cases hv
        all_goals
          cases f <;> first
            | exact absurd rfl h0
            | exact absurd rfl hf
            | exact .face (Or.inl rfl) (by decide)
            | exact absurd h (no_rotation (by decide) (by decide) (by decide) (t1 _ (by decide) _ (by decide)))
      · cases a <;> intro h hv <;> cases hv
        all_goals
          cases f <;> first
            | exact absurd rfl h0
            | exact absurd rfl hf
            | exact .face (Or.inr rfl) (by decide)
            | exact absurd h (no_rotation (by decide) (by decide) (by decide) (t1 _ (by decide) _ (by decide)))
      · intro h hv
        have hv' : v = ⟨1, 1, 1⟩ := by revert hv; cases a <;> intro hv <;> cases hv <;> rfl
        subst hv'
        cases f <;> first
          | exact absurd rfl h0
          | exact absurd rfl hf
          | exact .body _
          | exact absurd h (no_rotation (by decide) (by decide) (by decide) (t2 _ (by decide)))
  · intro h
    by_cases hf : f = .N1
    · exact ⟨M3.one, by unfold HallRotation; rw [if_pos hf]⟩
    · have hr : (rotationMatrix f d a).isSome := by
        cases h with
        | one => exact absurd rfl hf
        | principal h2 ha => revert h2 ha hf h0; cases f <;> cases a <;> decide
        | face hd ha => rcases hd with rfl | rfl <;> revert ha <;> cases a <;> decide
        | body => rfl
      obtain ⟨m, hm⟩ := Option.isSome_iff_exists.1 hr
      exact ⟨m.rot, hallRotation_of_matrix hm hf⟩

/-! ## One symbol -/

/-- `m` is the matrix symbol that realises `u`. -/
structure Realises (u : Understood) (m : MatrixSymbol) : Prop where
  minus : m.minusSign = u.symbol.minus
  fold : m.nfoldBody = u.symbol.fold
  sub : m.nfoldSub = u.symbol.sub
  letters : m.translationSymbols = lettersOpt u.symbol.letters
  axis : u.symbol.fold ≠ .N1 → axisDirection m.nfoldDiag m.rotationAxis = u.axis
  along : 3 ≤ u.symbol.fold.number → m.rotationAxis.direction = u.along

theorem direction_none {a : RotationAxis} : a.direction ≠ none ↔ a ≠ .Omitted := by cases a <;> decide

/-- A symbol is accepted by the code exactly when it is by the specification. -/
theorem accepted_iff {u : Understood} {m : MatrixSymbol} (h : Realises u m) (hv : u.symbol.Valid) :
    (∃ g, m.seitzMatrix = some g) ↔ u.Accepted := by
  rw [symbol_accepted_iff]
  obtain ⟨h1, h2, h3, h4, h5, h6⟩ := h
  unfold Understood.Accepted AllowedSubscript
  rw [h2, h3]
  refine and_congr ?_ ?_
  · by_cases hf : u.symbol.fold = .N1
    · constructor
      · intro _; exact ⟨M3.one, by unfold HallRotation; rw [if_pos hf]⟩
      · intro _; rw [hf]; exact .one _ _
    · rw [← h5 hf]
      exact (rotation_exists_iff hv.1).symm
  · by_cases hn : u.symbol.fold.number ≤ 2
    · exact ⟨fun _ => Or.inl hn, fun _ => Or.inl hn⟩
    · rw [← h6 (by omega), direction_none]

theorem axisDirection_axes {d : NFoldDiag} {a : RotationAxis} {v : V3} (h : axisDirection d a = some v) : v ∈ hallAxes := by
  revert h
  cases d <;> cases a <;> intro h <;> cases h <;> decide

/-- The matrix of an accepted symbol acts as the operation of the symbol, up to whole cells. -/
theorem read_means {u : Understood} {m : MatrixSymbol} (h : Realises u m) (hv : u.symbol.Valid) {g : M4}
    (hg : m.seitzMatrix = some g) : (∃ f, u.Operation f) ∧ ∀ f, u.Operation f → SameModCell f g.act := by
  have hacc := (accepted_iff h hv).1 ⟨g, hg⟩
  obtain ⟨w, d, al⟩ := u
  obtain ⟨sg, fo, su, di, ax, trs⟩ := m
  obtain ⟨h1, h2, h3, h4, h5, h6⟩ := h
  simp only [] at h1 h2 h3 h4 h5 h6 hv
  subst h1 h2 h3 h4
  obtain ⟨⟨R0, hR0⟩, hsub⟩ := hacc
  refine ⟨⟨_, ⟨⟨R0, hR0⟩, hsub⟩, R0, hR0, fun _ => rfl⟩, ?_⟩
  obtain ⟨r, hrm, hgr⟩ := seitzMatrix_rot hg
  obtain ⟨r', c, hr', hc, ht⟩ := seitzMatrix_tr hg
  rw [hrm] at hr'
  obtain rfl := Option.some.inj hr'
  simp only [] at hrm hgr ht hsub
  have hrot : HallRotation w.fold d r.rot := by
    by_cases hf : w.fold = .N1
    · rw [hf] at hrm ⊢
      cases hrm
      unfold HallRotation
      rw [if_pos rfl]; rfl
    · rw [← h5 hf]
      exact hallRotation_of_matrix hrm hf
  rintro f ⟨_, R, hR, hp⟩
  simp only [] at hR hp
  have hRr : R = r.rot := by
    by_cases hf : w.fold = .N1
    · unfold HallRotation at hR hrot
      rw [if_pos hf] at hR hrot
      rw [hR, hrot]
    · refine hallRotation_unique hv.1 (fun v hv' => ?_) hR hrot
      rw [← h5 hf] at hv'
      exact axisDirection_axes hv'
  subst hRr
  -- screw part
  have hscrew : ((c.tr.x : ℚ) / 12 = (if w.fold.number ≤ 2 then 0 else w.sub.number / w.fold.number : ℚ) * (al.getD ⟨0, 0, 0⟩).x) ∧
      ((c.tr.y : ℚ) / 12 = (if w.fold.number ≤ 2 then 0 else w.sub.number / w.fold.number : ℚ) * (al.getD ⟨0, 0, 0⟩).y) ∧
      ((c.tr.z : ℚ) / 12 = (if w.fold.number ≤ 2 then 0 else w.sub.number / w.fold.number : ℚ) * (al.getD ⟨0, 0, 0⟩).z) := by
    have htr := (rotationMatrix_facts hrm).2.1
    by_cases h2 : w.fold.number ≤ 2
    · have hcr : c = r := by
        unfold setTransform at hc
        revert hc h2
        cases w.fold <;> intro hc h2 <;> first
          | exact absurd h2 (by decide)
          | (simp [screwComponent] at hc; done)
          | (simp only [screwComponent, Option.some.injEq] at hc; exact hc.symm)
      rw [hcr, htr, if_pos h2]
      simp [V3.zero]
    rw [if_neg h2]
    rcases hsub with hs | hs | ⟨ha, hs⟩
    · exact absurd hs h2
    · have hcr : c = r := by
        unfold setTransform at hc
        simp only [hs] at hc
        revert hc
        cases w.fold <;> simp only [screwComponent, Option.some.injEq, reduceCtorEq, false_imp_iff] <;> exact fun h => h.symm
      rw [hcr, htr, hs]
      simp [NFoldSub.number, V3.zero]
    · have h3 : 3 ≤ w.fold.number := by omega
      obtain ⟨v, hv1⟩ := Option.ne_none_iff_exists'.1 ha
      have hax : ax.direction = some v := by rw [h6 h3, hv1]
      obtain ⟨e1, k, hk⟩ := screw_part (s := ⟨w.minus, w.fold, w.sub, di, ax, lettersOpt w.letters⟩) hrm hc h3 hax
      simp only [] at e1 hk
      have hN : (w.fold.number : Int) ≠ 0 := by omega
      have hNQ : (w.fold.number : ℚ) ≠ 0 := by exact_mod_cast hN
      rw [hk, Int.mul_ediv_cancel_left _ hN] at e1
      have hkq : (w.sub.number : ℚ) / w.fold.number = k / 12 := by
        rw [div_eq_div_iff hNQ (by norm_num)]
        have : (12 * w.sub.number : ℚ) = w.fold.number * k := by exact_mod_cast hk
        linarith
      rw [hkq, e1, hv1]
      simp only [Option.getD_some, V3.smul_x, V3.smul_y, V3.smul_z]
      refine ⟨?_, ?_, ?_⟩ <;> push_cast <;> ring
  obtain ⟨c1, c2, c3⟩ := hscrew
  -- letters
  obtain ⟨k, hk⟩ : ∃ k : V3, (g.tr.x : ℚ) / 12 + k.x = c.tr.x / 12 + (totalShift w.letters).x ∧
      (g.tr.y : ℚ) / 12 + k.y = c.tr.y / 12 + (totalShift w.letters).y ∧
      (g.tr.z : ℚ) / 12 + k.z = c.tr.z / 12 + (totalShift w.letters).z := by
    unfold lettersOpt at ht
    by_cases hl : w.letters = []
    · rw [if_pos hl] at ht
      simp only [] at ht
      refine ⟨⟨0, 0, 0⟩, ?_⟩
      rw [hl, ht]
      simp [totalShift]
    · rw [if_neg hl] at ht
      simp only [] at ht
      obtain ⟨_, _, kx, hx⟩ := reduceTranslation_facts (sumTranslations w.letters).x
      obtain ⟨_, _, ky, hy⟩ := reduceTranslation_facts (sumTranslations w.letters).y
      obtain ⟨_, _, kz, hz⟩ := reduceTranslation_facts (sumTranslations w.letters).z
      obtain ⟨s1, s2, s3⟩ := sumTranslations_shift w.letters
      have ex : reduceTranslation (sumTranslations w.letters).x = (sumTranslations w.letters).x + 12 * kx := by omega
      have ey : reduceTranslation (sumTranslations w.letters).y = (sumTranslations w.letters).y + 12 * ky := by omega
      have ez : reduceTranslation (sumTranslations w.letters).z = (sumTranslations w.letters).z + 12 * kz := by omega
      refine ⟨⟨-kx, -ky, -kz⟩, ?_⟩
      rw [ht, ← s1, ← s2, ← s3]
      simp only [V3.add_x, V3.add_y, V3.add_z, V3.map_x, V3.map_y, V3.map_z, ex, ey, ez]
      refine ⟨?_, ?_, ?_⟩ <;> push_cast <;> ring
  obtain ⟨k1, k2, k3⟩ := hk
  refine ⟨k, fun p => ?_⟩
  rw [hp p, ← c1, ← c2, ← c3]
  cases hmin : w.minus
  · rw [hmin] at hgr
    simp only [Bool.false_eq_true, if_false] at hgr ⊢
    ext <;> simp only [M4.act, Pt.addCell, hgr] <;> linarith
  · rw [hmin] at hgr
    simp only [if_true] at hgr ⊢
    ext <;> simp only [M4.act, Pt.addCell, hgr, M3.map] <;> push_cast <;> linarith

/-! ## All symbols -/

theorem realises_first (w : Written) : Realises ⟨w, readDirection 0 none w, readScrewAxis 0 w⟩ (restoreFirst w.raw) := by
  obtain ⟨h1, h2, h3, h4⟩ := restoreFirst_fields w.raw
  refine ⟨h1, h2, h3, h4, fun _ => ?_, fun _ => ?_⟩
  · unfold readDirection restoreFirst Written.raw
    cases w.axis with
    | none => rfl
    | some a => cases a <;> rfl
  · unfold readScrewAxis restoreFirst Written.raw
    cases w.axis with
    | none => rfl
    | some a => cases a <;> rfl

theorem realises_second (p : NFold) (w : Written) :
    Realises ⟨w, readDirection 1 (some p) w, readScrewAxis 1 w⟩ (restoreSecond p w.raw) := by
  obtain ⟨h1, h2, h3, h4⟩ := restoreSecond_fields p w.raw
  refine ⟨h1, h2, h3, h4, fun _ => ?_, fun h3 => ?_⟩
  · unfold readDirection restoreSecond
    by_cases h : w.fold = .N2
    · rw [if_pos (show w.raw.nfoldBody = .N2 from h)]
      simp only [h]
      unfold Written.raw
      cases p <;> cases w.axis with
        | none => rfl
        | some a => cases a <;> rfl
    · rw [if_neg (show ¬ w.raw.nfoldBody = .N2 from h)]
      rw [if_neg (by decide), if_neg (by simp [h]), if_neg (by simp [h]), if_neg (by simp)]
      unfold Written.raw
      cases w.axis with
      | none => rfl
      | some a => cases a <;> rfl
  · have h : ¬ w.raw.nfoldBody = .N2 := by
      intro e
      change w.fold = .N2 at e
      simp only [e] at h3
      exact absurd h3 (by decide)
    unfold readScrewAxis restoreSecond
    rw [if_neg h]
    unfold Written.raw
    cases w.axis with
    | none => rfl
    | some a => cases a <;> rfl

theorem realises_third (p : NFold) (w : Written) :
    Realises ⟨w, readDirection 2 (some p) w, readScrewAxis 2 w⟩ (restoreThird w.raw) := by
  obtain ⟨h1, h2, h3, h4⟩ := restoreThird_fields w.raw
  refine ⟨h1, h2, h3, h4, fun _ => ?_, fun _ => ?_⟩
  · unfold readDirection restoreThird
    simp only [show ¬ (2 : Nat) = 0 by decide, show ¬ (2 : Nat) = 1 by decide, false_and, if_false]
    by_cases h : w.fold = .N3
    · rw [if_pos (show w.raw.nfoldBody = .N3 from h), if_pos ⟨trivial, h⟩]
      unfold Written.raw
      cases w.axis with
      | none => rfl
      | some a => cases a <;> rfl
    · rw [if_neg (show ¬ w.raw.nfoldBody = .N3 from h), if_neg (by simp [h])]
      unfold Written.raw
      cases w.axis with
      | none => rfl
      | some a => cases a <;> rfl
  · have e : (restoreThird w.raw).rotationAxis = w.raw.rotationAxis := by unfold restoreThird; split <;> rfl
    rw [e]
    unfold readScrewAxis Written.raw
    cases w.axis with
    | none => rfl
    | some a => cases a <;> rfl

theorem realises_later {place : Nat} (hp : 3 ≤ place) (p : Option NFold) (w : Written) :
    Realises ⟨w, readDirection place p w, readScrewAxis place w⟩ w.raw := by
  refine ⟨rfl, rfl, rfl, rfl, fun _ => ?_, fun _ => ?_⟩
  · unfold readDirection
    rw [if_neg (by omega), if_neg (by omega), if_neg (by omega), if_neg (by omega)]
    unfold Written.raw
    cases w.axis with
    | none => rfl
    | some a => cases a <;> rfl
  · have h0 : place ≠ 0 := by omega
    unfold readScrewAxis Written.raw
    cases w.axis with
    | none => rfl
    | some a => cases a <;> simp [AxisMark.raw, RotationAxis.direction, h0]

theorem realises_rest {ws : List Written} {place : Nat} (hp : 3 ≤ place) {p : Option NFold} :
    List.Forall₂ Realises (asRead place p ws) (ws.map Written.raw) := by
  induction ws generalizing place p with
  | nil => exact .nil
  | cons w ws ih => exact .cons (realises_later hp p w) (ih (by omega))

/-- The notation read from a text realises the symbols as understood. -/
theorem realises_all (ws : List Written) : List.Forall₂ Realises (asRead 0 none ws) (restore (ws.map Written.raw)) := by
  match ws with
  | [] => exact .nil
  | [a] => exact .cons (realises_first a) .nil
  | [a, b] => exact .cons (realises_first a) (.cons (realises_second a.fold b) .nil)
  | a :: b :: c :: rest =>
    exact .cons (realises_first a) (.cons (realises_second a.fold b) (.cons (realises_third b.fold c)
      (realises_rest (by omega))))

theorem mem_asRead {ws : List Written} {place : Nat} {p : Option NFold} {u : Understood} (h : u ∈ asRead place p ws) :
    u.symbol ∈ ws := by
  induction ws generalizing place p with
  | nil => cases h
  | cons w ws ih =>
    rcases List.mem_cons.1 h with rfl | h
    · exact List.mem_cons_self ..
    · exact List.mem_cons_of_mem _ (ih h)

theorem ReadGroup.lattice {minus : Bool} {l : Lattices} {ws : List Written} {v : V3} {f : Pt → Pt}
    (h : IsCentringTranslation l f) : ReadGroup minus l ws v f := by
  obtain ⟨q, hq, k, hp⟩ := h
  rcases List.mem_cons.1 hq with rfl | hq
  · have e : f = fun p => p.addCell k := by
      funext p; rw [hp p]; simp [Pt.addCell]
    rw [e]; exact .cell k
  · have e : f = (fun p : Pt => p.addCell k) ∘ (fun p : Pt => (⟨p.x + q.x, p.y + q.y, p.z + q.z⟩ : Pt)) := by
      funext p; rw [hp p]; rfl
    rw [e]; exact (ReadGroup.cell k).comp (.centring hq)

/-- The group of a notation that realises the symbols as understood. -/
theorem group_of_realises {n : HallSymbolNotation} {minus : Bool} {l : Lattices} {ws : List Written} {v : V3}
    (hl : n.latticeSymbol = ⟨minus, l⟩) (hm : List.Forall₂ Realises (asRead 0 none ws) n.matrixSymbols)
    (hv : ∀ w ∈ ws, w.Valid) (ho : V3.Cong n.originShift.vec v) (f : Pt → Pt) :
    SpaceGroup n f ↔ ReadGroup minus l ws v f := by
  constructor
  · intro hf
    induction hf with
    | one => exact .one
    | cell k => exact .cell k
    | @centring w hw =>
      rw [hl] at hw
      refine .lattice ⟨_, (centring_iff l _).2 ⟨w, hw, rfl⟩, ⟨0, 0, 0⟩, fun p => ?_⟩
      simp [Pt.addTwelfths]
    | inversion hmin => exact .inversion (by rw [hl] at hmin; exact hmin)
    | @generator s g hs hg =>
      obtain ⟨u, hu, hreal⟩ := forall₂_right hm hs
      obtain ⟨⟨f0, hf0⟩, hall⟩ := read_means hreal (hv _ (mem_asRead hu)) hg
      obtain ⟨k, hk⟩ := conj_cells (hall f0 hf0) ho
      rw [hk]
      exact (ReadGroup.cell k).comp (.symbol hu hf0)
    | comp _ _ ih1 ih2 => exact ih1.comp ih2
    | inv _ h1 h2 ih => exact ih.inv h1 h2
  · intro hf
    induction hf with
    | one => exact .one
    | cell k => exact .cell k
    | @centring q hq =>
      obtain ⟨w, hw, rfl⟩ := (centring_iff l q).1 (List.mem_cons_of_mem _ hq)
      exact .centring (by rw [hl]; exact hw)
    | inversion hmin => exact .inversion (by rw [hl]; exact hmin)
    | @symbol u f0 hu hf0 =>
      obtain ⟨m, hmm, hreal⟩ := forall₂_left hm hu
      obtain ⟨g, hg⟩ := (accepted_iff hreal (hv _ (mem_asRead hu))).2 hf0.1
      obtain ⟨k, hk⟩ := conj_cells ((read_means hreal (hv _ (mem_asRead hu)) hg).2 f0 hf0) ho
      rw [neg_cell hk]
      exact (SpaceGroup.cell k.neg).comp (.generator hmm hg)
    | comp _ _ ih1 ih2 => exact ih1.comp ih2
    | inv _ h1 h2 ih => exact ih.inv h1 h2

end Verif
