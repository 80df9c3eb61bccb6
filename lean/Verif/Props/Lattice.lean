import Verif.Props.Generation
import Verif.Props.Success

/-! # Centring translations and reduction of translations (C42-C44) -/

namespace Verif

/-! ## C43 -/

/-- C43, exact value: the non-negative remainder, except for negative multiples of 12, which give 12 instead of 0. -/
theorem positive_mod_value_partial (v : Int) : positiveMod v = if v < 0 ∧ (12 : Int) ∣ v then 12 else v % 12 := by
  unfold positiveMod base
  rcases tmod12_cases v with h | h <;> split <;> split <;> omega

example : ¬ ((-7 : Int) < 0 ∧ (12 : Int) ∣ -7) ∧ positiveMod (-7) = 5 := by decide

/-- C43 fails: -12 is reduced to 12. It shows in the operation `shifted_matrix` returns for the 2-fold of
`P 2 (-6 0 0)`, whose translation is (12, 0, 0). -/
theorem positive_mod_twelve : positiveMod (-12) = 12 ∧
    ∃ m, (hall "P 2 (-6 0 0)").seitzMatrices = some [m] ∧
      ((hall "P 2 (-6 0 0)").originShift.shiftedMatrix m).tr = ⟨12, 0, 0⟩ :=
  ⟨by decide, ⟨⟨-1, 0, 0, 0, -1, 0, 0, 0, 1⟩, ⟨0, 0, 0⟩, ⟨0, 0, 0⟩, 1⟩, by decide +kernel, by decide +kernel⟩

/-! ## C42 -/

theorem foldl_minStep_norm (l : List V3) (init : V3) : (l.foldl minStep init).normSq ≤ init.normSq := by
  induction l generalizing init with
  | nil => exact Int.le_refl _
  | cons a l ih =>
    rw [List.foldl_cons]
    refine (ih _).trans ?_
    unfold minStep
    split
    · omega
    · exact Int.le_refl _

/-- C42, the part that holds: the stored translation differs from the computed one by a lattice translation, lies in
`0..12`, and is not longer than the plain reduction. Hypothesis: components above -12, which every translation offered to
the list has (C04, and `positions_normalised`). -/
theorem minimal_translation_partial (l : LatticeSymbol) (t : V3) (h : -12 < t.x ∧ -12 < t.y ∧ -12 < t.z) :
    IsLatticeTranslation l (fun p => p.addTwelfths ((l.minimalRepr t).sub t)) ∧
    (∀ c ∈ (l.minimalRepr t).toList, 0 ≤ c ∧ c < 12) ∧
    (l.minimalRepr t).normSq ≤ (t.x % 12) * (t.x % 12) + (t.y % 12) * (t.y % 12) + (t.z % 12) * (t.z % 12) := by
  refine ⟨?_, ?_, ?_⟩
  · rw [← trMat_act, isLatticeTranslation_iff]
    obtain ⟨tr, h1, h2, h3, h4⟩ := minimalRepr_latCong l t
    refine ⟨tr, h1, ?_⟩
    simp only [V3.add_x, V3.add_y, V3.add_z] at h2 h3 h4
    refine ⟨?_, ?_, ?_⟩ <;> simp only [V3.add_x, V3.add_y, V3.add_z, V3.sub_x, V3.sub_y, V3.sub_z, V3.zero] <;> omega
  · obtain ⟨h1, h2, h3⟩ := minimalRepr_red l (t := t) h
    intro c hc
    simp only [V3.toList, List.mem_cons, List.not_mem_nil, or_false] at hc
    rcases hc with rfl | rfl | rfl <;> assumption
  · refine (foldl_minStep_norm _ _).trans ?_
    have e : ∀ v : Int, -12 < v → positiveMod v = v % 12 := by
      intro v hv
      rw [positive_mod_value_partial, if_neg (by omega)]
    simp only [V3.normSq, V3.map_x, V3.map_y, V3.map_z, e _ h.1, e _ h.2.1, e _ h.2.2]
    exact Int.le_refl _

example : (⟨false, .F⟩ : LatticeSymbol).minimalRepr ⟨-3, 7, 8⟩ = ⟨3, 7, 2⟩ := by decide

theorem foldl_minStep_best (l : List V3) (init : V3) :
    countNonPos (l.foldl minStep init) ≤ countNonPos init ∧
    ∀ c ∈ l, ¬ (c.normSq < (l.foldl minStep init).normSq ∧ countNonPos c ≤ countNonPos (l.foldl minStep init)) := by
  induction l generalizing init with
  | nil => exact ⟨Nat.le_refl _, fun c hc => by simp at hc⟩
  | cons a l ih =>
    rw [List.foldl_cons]
    obtain ⟨h1, h2⟩ := ih (minStep init a)
    have h3 := foldl_minStep_norm l (minStep init a)
    have hstep : countNonPos (minStep init a) ≤ countNonPos init := by
      unfold minStep; split <;> omega
    refine ⟨h1.trans hstep, fun c hc => ?_⟩
    rcases List.mem_cons.1 hc with rfl | hc
    · rintro ⟨n1, n2⟩
      have : ¬ (c.normSq < (minStep init c).normSq ∧ countNonPos c ≤ countNonPos (minStep init c)) := by
        by_cases hb : init.normSq > c.normSq ∧ countNonPos init ≥ countNonPos c
        · have e : minStep init c = c := if_pos hb
          rw [e]; omega
        · have e : minStep init c = init := if_neg hb
          rw [e]; omega
      exact this ⟨by omega, by omega⟩
    · exact h2 c hc

/-- The number of zero components. -/
def V3.zeros (v : V3) : Nat := (v.toList.filter (fun c => decide (c = 0))).length

theorem countNonPos_red {v : V3} (h : v.Red) : countNonPos v = v.zeros := by
  unfold countNonPos V3.zeros
  congr 1
  refine List.filter_congr fun c hc => ?_
  obtain ⟨h1, h2, h3⟩ := h
  have : 0 ≤ c := by
    simp only [V3.toList, List.mem_cons, List.not_mem_nil, or_false] at hc
    rcases hc with rfl | rfl | rfl <;> omega
  simp only [decide_eq_decide]; omega

/-- C42, what "minimal" means: no translation with components in `0..12` that differs from the given one by a lattice
translation is both shorter than the stored one and has at most as many zero components. -/
theorem minimal_translation_undominated (l : LatticeSymbol) (t : V3) (h : -12 < t.x ∧ -12 < t.y ∧ -12 < t.z) (v : V3)
    (hv : ∀ c ∈ v.toList, 0 ≤ c ∧ c < 12) (hlat : IsLatticeTranslation l (fun p => p.addTwelfths (v.sub t))) :
    ¬ (v.normSq < (l.minimalRepr t).normSq ∧ v.zeros ≤ (l.minimalRepr t).zeros) := by
  have hvr : v.Red := ⟨hv _ (by simp [V3.toList]), hv _ (by simp [V3.toList]), hv _ (by simp [V3.toList])⟩
  rw [← trMat_act, isLatticeTranslation_iff] at hlat
  obtain ⟨tr, htr, h1, h2, h3⟩ := hlat
  have ha : (t.add tr).Above := V3.Above.add h (l.red htr)
  have hr := ha.red
  have e : v = (t.add tr).map positiveMod := by
    obtain ⟨c1, c2, c3⟩ := cong_map_positiveMod (t.add tr)
    obtain ⟨r1, r2, r3⟩ := hr
    obtain ⟨q1, q2, q3⟩ := hvr
    simp only [V3.add_x, V3.add_y, V3.add_z, V3.sub_x, V3.sub_y, V3.sub_z, V3.zero] at h1 h2 h3 c1 c2 c3
    refine V3.ext ?_ ?_ ?_ <;> omega
  have hb := (foldl_minStep_best (l.translations.map fun tr => (t.add tr).map positiveMod) (t.map positiveMod)).2 v
    (by rw [e]; exact List.mem_map_of_mem (f := fun tr => (t.add tr).map positiveMod) htr)
  rw [← countNonPos_red hvr, ← countNonPos_red (minimalRepr_red l h)]
  exact hb

/-- In lattice I (7, 8, 5) and (1, 2, 11) represent the same translation; the shorter one is stored. -/
example : (⟨false, .I⟩ : LatticeSymbol).minimalRepr ⟨7, 8, 5⟩ = ⟨1, 2, 11⟩ ∧
    IsLatticeTranslation ⟨false, .I⟩ (fun p => p.addTwelfths (V3.sub ⟨1, 2, 11⟩ ⟨7, 8, 5⟩)) :=
  ⟨by decide, ⟨6, 6, 6⟩, by decide, ⟨-1, -1, 0⟩, fun p => by
    ext <;> simp [Pt.addCell, Pt.addTwelfths, V3.sub] <;> ring⟩

/-- C42 fails for "shortest": with lattice A the translation (0, 6, 6) is equivalent to zero but kept. -/
theorem minimal_translation_not_shortest : (⟨false, .A⟩ : LatticeSymbol).minimalRepr ⟨0, 6, 6⟩ = ⟨0, 6, 6⟩ ∧
    IsLatticeTranslation ⟨false, .A⟩ (fun p => p.addTwelfths ⟨0, 6, 6⟩) :=
  ⟨by decide, ⟨0, 6, 6⟩, by decide, V3.zero, fun p => by simp [Pt.addCell, V3.zero]⟩

/-! ## C44 -/

/-- C44. The centring translations: zero is one of them, no two are equal modulo whole cells, components in `0..12`,
closed under sum and difference modulo whole cells, and `num_of_translations` counts them. -/
theorem lattice_translations_group (l : LatticeSymbol) :
    V3.zero ∈ l.translations ∧
    l.translations.Pairwise (fun a b => ¬ SameModCell (fun p => p.addTwelfths a) (fun p => p.addTwelfths b)) ∧
    (∀ a ∈ l.translations, ∀ c ∈ a.toList, 0 ≤ c ∧ c < 12) ∧
    (∀ a ∈ l.translations, ∀ b ∈ l.translations, ∃ c ∈ l.translations,
      SameModCell (fun p => (p.addTwelfths a).addTwelfths b) (fun p => p.addTwelfths c)) ∧
    (∀ a ∈ l.translations, ∃ c ∈ l.translations,
      SameModCell (fun p => p.subTwelfths a) (fun p => p.addTwelfths c)) ∧
    l.numOfTranslations = l.translations.length := by
  refine ⟨l.char.zero_mem, ?_, ?_, ?_, ?_, ?_⟩
  · refine l.char.nodup_cong.imp ?_
    intro a b hne h
    simp only [← trMat_act] at h
    exact hne (M4.cong_of_sameModCell h).2
  · intro a ha c hc
    obtain ⟨h1, h2, h3⟩ := l.red ha
    simp only [V3.toList, List.mem_cons, List.not_mem_nil, or_false] at hc
    rcases hc with rfl | rfl | rfl <;> assumption
  · intro a ha b hb
    obtain ⟨c, hc, hcong⟩ := l.char.add_closed a ha b hb
    refine ⟨c, hc, ?_⟩
    have := M4.sameModCell_of_cong (a := trMat (a.add b)) (b := trMat c) rfl hcong
    obtain ⟨k, hk⟩ := this
    refine ⟨k, fun p => ?_⟩
    rw [← trMat_act, ← hk p, trMat_act]
    simp only [Pt.addTwelfths, V3.add_x, V3.add_y, V3.add_z, Int.cast_add, Pt.mk.injEq]
    refine ⟨?_, ?_, ?_⟩ <;> ring
  · intro a ha
    obtain ⟨c, hc, hcong⟩ := l.char.neg_closed a ha
    refine ⟨c, hc, ?_⟩
    have := M4.sameModCell_of_cong (a := trMat a.neg) (b := trMat c) rfl hcong
    obtain ⟨k, hk⟩ := this
    refine ⟨k, fun p => ?_⟩
    rw [← trMat_act, ← hk p, trMat_act]
    simp only [Pt.addTwelfths, Pt.subTwelfths, V3.neg_x, V3.neg_y, V3.neg_z, Int.cast_neg, Pt.mk.injEq]
    refine ⟨?_, ?_, ?_⟩ <;> ring
  · obtain ⟨b, c⟩ := l
    cases c <;> rfl

/-- C44. `seitz_matrices` of the lattice symbol: the centring translations and, with a minus sign, each of them after
the inversion. -/
theorem lattice_matrices (l : LatticeSymbol) :
    (∀ m ∈ l.seitzMatrices, m.Affine ∧ ∃ v ∈ l.translations,
      (∀ p, m.act p = p.addTwelfths v) ∨ (l.minusSign = true ∧ ∀ p, m.act p = (M4.inversion.act p).addTwelfths v)) ∧
    (∀ v ∈ l.translations, ∃ m ∈ l.seitzMatrices, ∀ p, m.act p = p.addTwelfths v) ∧
    (l.minusSign = true → ∀ v ∈ l.translations, ∃ m ∈ l.seitzMatrices, ∀ p, m.act p = (M4.inversion.act p).addTwelfths v) ∧
    l.seitzMatrices.length = l.equivNum := by
  have hid : ∀ v ∈ l.translations, ∀ p, (M4.identity.addV v).act p = p.addTwelfths v := by
    intro v hv p
    have e : (V3.zero.add v).map (fun v => Int.tmod v base) = v := by
      obtain ⟨⟨h1, h2⟩, ⟨h3, h4⟩, ⟨h5, h6⟩⟩ := l.red hv
      ext <;> simp [base] <;> [rcases tmod12_cases v.x with h | h; rcases tmod12_cases v.y with h | h; rcases tmod12_cases v.z with h | h] <;> omega
    have e2 : M4.identity.addV v = trMat v := by
      unfold M4.addV M4.identity M4.one trMat
      simp only [e]
    rw [e2, trMat_act]
  have hin : ∀ v ∈ l.translations, ∀ p, (M4.inversion.addV v).act p = (M4.inversion.act p).addTwelfths v := by
    intro v hv p
    have e : (V3.zero.add v).map (fun v => Int.tmod v base) = v := by
      obtain ⟨⟨h1, h2⟩, ⟨h3, h4⟩, ⟨h5, h6⟩⟩ := l.red hv
      ext <;> simp [base] <;> [rcases tmod12_cases v.x with h | h; rcases tmod12_cases v.y with h | h; rcases tmod12_cases v.z with h | h] <;> omega
    have e2 : M4.inversion.addV v = ⟨M4.inversion.rot, v, V3.zero, 1⟩ := by
      unfold M4.addV
      change M4.mk _ ((V3.zero.add v).map (fun v => Int.tmod v base)) _ _ = _
      rw [e]; rfl
    rw [e2]
    simp [M4.act, M4.inversion, Pt.addTwelfths, M3.map, M3.one, V3.zero]
  unfold LatticeSymbol.seitzMatrices
  by_cases hm : l.minusSign = true
  · simp only [hm, if_true]
    refine ⟨?_, ?_, ?_, ?_⟩
    · intro m hmem
      obtain ⟨v, hv, hmem⟩ := List.mem_flatMap.1 hmem
      simp only [List.mem_cons, List.not_mem_nil, or_false] at hmem
      rcases hmem with rfl | rfl
      · exact ⟨⟨rfl, rfl⟩, v, hv, .inl (hid v hv)⟩
      · exact ⟨⟨rfl, rfl⟩, v, hv, .inr ⟨trivial, hin v hv⟩⟩
    · intro v hv
      exact ⟨_, List.mem_flatMap.2 ⟨v, hv, List.mem_cons_self ..⟩, hid v hv⟩
    · intro _ v hv
      exact ⟨_, List.mem_flatMap.2 ⟨v, hv, List.mem_cons_of_mem _ (List.mem_cons_self ..)⟩, hin v hv⟩
    · obtain ⟨b, c⟩ := l
      subst hm
      cases c <;> rfl
  · simp only [hm]
    refine ⟨?_, ?_, ?_, ?_⟩
    · intro m hmem
      obtain ⟨v, hv, rfl⟩ := List.mem_map.1 hmem
      exact ⟨⟨rfl, rfl⟩, v, hv, .inl (hid v hv)⟩
    · intro v hv
      exact ⟨_, List.mem_map.2 ⟨v, hv, rfl⟩, hid v hv⟩
    · intro h; cases h
    · obtain ⟨b, c⟩ := l
      cases b
      · cases c <;> rfl
      · exact absurd rfl hm

example : (⟨true, .R⟩ : LatticeSymbol).seitzMatrices.length = 6 := rfl

end Verif
