import Verif.Props.Success

/-! # The origin shift (C29, C30) -/

namespace Verif

/-- The map `f` seen from an origin moved by `-v/12`: `p ↦ f(p - v/12) + v/12`. -/
def moveOrigin (v : V3) (f : Pt → Pt) : Pt → Pt := fun p => (f (p.subTwelfths v)).addTwelfths v

/-! ## C29 -/

/-- C29. `shifted_matrix` is the change of origin: the result acts as `p ↦ m(p - v) + v` up to whole cells, keeps the
rotation part, and has last row `(0,0,0,1)`. -/
theorem shifted_is_change_of_origin (o : OriginShift) (m : M4) (h : m.Affine) :
    SameModCell (o.shiftedMatrix m).act (moveOrigin o.vec m.act) ∧ (o.shiftedMatrix m).rot = m.rot ∧
      (o.shiftedMatrix m).Affine := by
  obtain ⟨h1, h2, h3⟩ := shiftedMatrix_facts o h
  refine ⟨?_, h2, h1⟩
  unfold moveOrigin
  rw [shifted_act]
  exact M4.sameModCell_of_cong h2 (by rw [h3]; exact cong_map_positiveMod _)

/-- C29. It preserves `==` (in both directions). -/
theorem shifted_respects_eq (o : OriginShift) (a b : M4) (ha : a.Affine) (hb : b.Affine) :
    M4.eqv (o.shiftedMatrix a) (o.shiftedMatrix b) = true ↔ M4.eqv a b = true := by
  obtain ⟨_, a2, a3⟩ := shiftedMatrix_facts o ha
  obtain ⟨_, b2, b3⟩ := shiftedMatrix_facts o hb
  rw [M4.eqv_iff, M4.eqv_iff, a2, b2, a3, b3]
  constructor
  · rintro ⟨e, h⟩
    refine ⟨e, ?_⟩
    have h' := ((cong_map_positiveMod _).symm.trans h).trans (cong_map_positiveMod _)
    rw [e] at h'
    obtain ⟨h1, h2, h3⟩ := h'
    simp only [V3.add_x, V3.add_y, V3.add_z, V3.sub_x, V3.sub_y, V3.sub_z] at h1 h2 h3
    refine ⟨?_, ?_, ?_⟩ <;> omega
  · rintro ⟨e, h⟩
    refine ⟨e, ?_⟩
    refine ((cong_map_positiveMod _).trans ?_).trans (cong_map_positiveMod _).symm
    rw [e]
    obtain ⟨h1, h2, h3⟩ := h
    refine ⟨?_, ?_, ?_⟩ <;> simp only [V3.add_x, V3.add_y, V3.add_z, V3.sub_x, V3.sub_y, V3.sub_z] <;> omega

/-- C29. It preserves products up to `==`. -/
theorem shifted_mul (o : OriginShift) (a b : M4) (ha : a.Affine) (hb : b.Affine) :
    M4.eqv (o.shiftedMatrix (a.mul b)) ((o.shiftedMatrix a).mul (o.shiftedMatrix b)) = true := by
  obtain ⟨_, a2, a3⟩ := shiftedMatrix_facts o ha
  obtain ⟨b1, b2, b3⟩ := shiftedMatrix_facts o hb
  obtain ⟨_, c2, c3⟩ := shiftedMatrix_facts o (ha.mul hb)
  rw [M4.eqv_iff, M4.mul_rot b1, a2, b2, c2, M4.mul_rot hb]
  refine ⟨rfl, ?_⟩
  rw [c3]
  refine (cong_map_positiveMod _).trans (V3.Cong.trans ?_ (M4.mul_tr_cong b1).symm)
  rw [a2, a3, b3, M4.mul_rot hb]
  have h1 : V3.Cong (((a.mul b).tr.sub ((a.rot.mul b.rot).mulVec o.vec)).add o.vec)
      ((((a.rot.mulVec b.tr).add a.tr).sub ((a.rot.mul b.rot).mulVec o.vec)).add o.vec) := by
    obtain ⟨h1, h2, h3⟩ := M4.mul_tr_cong (a := a) hb
    refine ⟨?_, ?_, ?_⟩ <;> simp only [V3.add_x, V3.add_y, V3.add_z, V3.sub_x, V3.sub_y, V3.sub_z] at * <;> omega
  have h2 := (M3.mulVec_cong a.rot (cong_map_positiveMod ((b.tr.sub (b.rot.mulVec o.vec)).add o.vec))).add
    (cong_map_positiveMod ((a.tr.sub (a.rot.mulVec o.vec)).add o.vec))
  refine h1.trans (V3.Cong.trans ?_ h2.symm)
  have e : (((a.rot.mulVec b.tr).add a.tr).sub ((a.rot.mul b.rot).mulVec o.vec)).add o.vec =
      (a.rot.mulVec ((b.tr.sub (b.rot.mulVec o.vec)).add o.vec)).add ((a.tr.sub (a.rot.mulVec o.vec)).add o.vec) := by
    ext <;> simp only [V3.add, V3.sub, M3.mulVec, M3.mul] <;> ring
  rw [e]
  exact .refl _

/-- A non-trivial shift and operation. -/
example : (OriginShift.new 3 (-5) 8).shiftedMatrix ⟨⟨0, -1, 0, 1, 0, 0, 0, 0, 1⟩, ⟨0, 0, 9⟩, ⟨0, 0, 0⟩, 1⟩ =
    ⟨⟨0, -1, 0, 1, 0, 0, 0, 0, 1⟩, ⟨10, 4, 9⟩, ⟨0, 0, 0⟩, 1⟩ := by decide

/-! ## C30 -/

theorem moveOrigin_comp (v : V3) (f g : Pt → Pt) : moveOrigin v (f ∘ g) = moveOrigin v f ∘ moveOrigin v g := by
  funext p
  simp [moveOrigin, Pt.addTwelfths, Pt.subTwelfths]

theorem moveOrigin_id (v : V3) : moveOrigin v id = id := by
  funext p
  simp [moveOrigin, Pt.addTwelfths, Pt.subTwelfths]

theorem moveOrigin_neg (v : V3) (f : Pt → Pt) : moveOrigin v.neg (moveOrigin v f) = f := by
  funext p
  have e1 : ∀ p : Pt, (p.subTwelfths v.neg).subTwelfths v = p := by
    intro p
    ext <;> simp [Pt.subTwelfths] <;> ring
  have e2 : ∀ p : Pt, (p.addTwelfths v).addTwelfths v.neg = p := by
    intro p
    ext <;> simp [Pt.addTwelfths] <;> ring
  simp only [moveOrigin, e1, e2]

theorem moveOrigin_translation (v : V3) (q : Pt) :
    moveOrigin v (fun p => ⟨p.x + q.x, p.y + q.y, p.z + q.z⟩) = fun p => ⟨p.x + q.x, p.y + q.y, p.z + q.z⟩ := by
  funext p
  simp only [moveOrigin, Pt.addTwelfths, Pt.subTwelfths, Pt.mk.injEq]
  refine ⟨?_, ?_, ?_⟩ <;> ring

/-- The two notations differ only in the origin shift. -/
def SameButShift (n n' : HallSymbolNotation) : Prop :=
  n.latticeSymbol = n'.latticeSymbol ∧ n.matrixSymbols = n'.matrixSymbols

/-- Without a leading minus sign any shift is harmless; with it, twice the shift must be a lattice translation, because
the inversion of the lattice symbol stays at the origin. -/
def ShiftAllowed (l : LatticeSymbol) (d : V3) : Prop :=
  l.minusSign = false ∨ IsLatticeTranslation l (fun p => (p.addTwelfths d).addTwelfths d)

theorem ShiftAllowed.neg {l : LatticeSymbol} {d : V3} (h : ShiftAllowed l d) : ShiftAllowed l d.neg := by
  rcases h with h | h
  · exact .inl h
  · right
    have e : ∀ d : V3, (fun p : Pt => (p.addTwelfths d).addTwelfths d) = (trMat (d.add d)).act := by
      intro d
      rw [trMat_act]
      funext p
      simp only [Pt.addTwelfths, V3.add_x, V3.add_y, V3.add_z, Int.cast_add, Pt.mk.injEq]
      refine ⟨?_, ?_, ?_⟩ <;> ring
    rw [e, isLatticeTranslation_iff] at h ⊢
    have e2 : d.neg.add d.neg = (d.add d).neg := by ext <;> simp only [V3.add, V3.neg] <;> ring
    rw [e2]
    obtain ⟨a, ha, h1⟩ := h
    obtain ⟨c, hc, h3⟩ := l.char.neg_closed a ha
    refine ⟨c, hc, ?_⟩
    rw [V3.zero_add] at *
    exact h1.neg.trans h3

theorem spaceGroup_moved {n n' : HallSymbolNotation} (h : SameButShift n n') {d : V3}
    (hd : n'.originShift.vec = n.originShift.vec.add d) (ha : ShiftAllowed n.latticeSymbol d) {f : Pt → Pt}
    (hf : SpaceGroup n f) : SpaceGroup n' (moveOrigin d f) := by
  have htr : ∀ q : Pt, moveOrigin d (fun p => ⟨p.x + q.x, p.y + q.y, p.z + q.z⟩) = _ := moveOrigin_translation d
  induction hf with
  | one => rw [moveOrigin_id]; exact .one
  | cell k =>
    have := htr ⟨k.x, k.y, k.z⟩
    simp only [] at this
    unfold Pt.addCell
    rw [this]
    exact .cell k
  | @centring v hv =>
    have := htr ⟨v.x / 12, v.y / 12, v.z / 12⟩
    simp only [] at this
    unfold Pt.addTwelfths
    rw [this]
    exact .centring (h.1 ▸ hv)
  | inversion hm =>
    rcases ha with ha | ha
    · rw [ha] at hm; cases hm
    · rw [h.1] at ha hm
      have := (SpaceGroup.lattice (n := n') ha).comp (.inversion hm)
      convert this using 1
      funext p
      simp only [moveOrigin, Function.comp, Pt.addTwelfths, Pt.subTwelfths, Pt.mk.injEq]
      refine ⟨?_, ?_, ?_⟩ <;> ring
  | @generator s g hs hg =>
    have := SpaceGroup.generator (n := n') (h.2 ▸ hs) hg
    convert this using 1
    funext p
    rw [hd]
    have e : ∀ p : Pt, (p.subTwelfths d).subTwelfths n.originShift.vec = p.subTwelfths (n.originShift.vec.add d) := by
      intro p
      simp only [Pt.subTwelfths, V3.add_x, V3.add_y, V3.add_z, Int.cast_add, Pt.mk.injEq]
      refine ⟨?_, ?_, ?_⟩ <;> ring
    have e' : ∀ p : Pt, (p.addTwelfths n.originShift.vec).addTwelfths d = p.addTwelfths (n.originShift.vec.add d) := by
      intro p
      simp only [Pt.addTwelfths, V3.add_x, V3.add_y, V3.add_z, Int.cast_add, Pt.mk.injEq]
      refine ⟨?_, ?_, ?_⟩ <;> ring
    simp only [moveOrigin, e, e']
  | comp _ _ ih1 ih2 => rw [moveOrigin_comp]; exact ih1.comp ih2
  | @inv f g _ h1 h2 ih =>
    refine ih.inv ?_ ?_
    · rw [← moveOrigin_comp, h1, moveOrigin_id]
    · rw [← moveOrigin_comp, h2, moveOrigin_id]

/-- C30, on the groups: moving the origin shift by `d/12` conjugates the group by the translation `d/12`. (Missing:
notations with a leading minus sign and a shift whose double is not a lattice translation, refuted below.) -/
theorem shifted_group_partial {n n' : HallSymbolNotation} (h : SameButShift n n') {d : V3}
    (hd : n'.originShift.vec = n.originShift.vec.add d) (ha : ShiftAllowed n.latticeSymbol d) (f : Pt → Pt) :
    SpaceGroup n' (moveOrigin d f) ↔ SpaceGroup n f := by
  constructor
  · intro hf
    have := spaceGroup_moved (n := n') (n' := n) ⟨h.1.symm, h.2.symm⟩ (d := d.neg)
      (by rw [hd, V3.add_assoc, V3.add_neg_self, V3.add_zero]) (h.1 ▸ ha.neg) hf
    rwa [moveOrigin_neg] at this
  · exact spaceGroup_moved h hd ha

theorem consistent_moved {n n' : HallSymbolNotation} (h : SameButShift n n') {d : V3}
    (hd : n'.originShift.vec = n.originShift.vec.add d) (ha : ShiftAllowed n.latticeSymbol d) (hn : Consistent n) :
    Consistent n' := by
  intro f hf ht
  have hf' := hf
  obtain ⟨q, hq⟩ := ht
  have e : f = fun p => ⟨p.x + q.x, p.y + q.y, p.z + q.z⟩ := funext hq
  have e2 : moveOrigin d f = f := by rw [e]; exact moveOrigin_translation d q
  rw [← e2] at hf
  have := hn f ((shifted_group_partial h hd ha f).1 hf) ⟨q, hq⟩
  rw [← h.1]; exact this

/-- C30, on the results: a notation and the same notation without origin shift either both have general positions or
neither, and for consistent symbols the listed operations are the same up to conjugation by the shift. -/
theorem shifted_positions_partial {n : HallSymbolNotation} (ha : ShiftAllowed n.latticeSymbol n.originShift.vec) :
    ((∃ g, HasPositions n g) ↔ ∃ g, HasPositions { n with originShift := .default } g) ∧
    ∀ g g₀, HasPositions n g → HasPositions { n with originShift := .default } g₀ → Consistent n →
      ∀ f, Listed g (moveOrigin n.originShift.vec f) ↔ Listed g₀ f := by
  have h : SameButShift { n with originShift := .default } n := ⟨rfl, rfl⟩
  have hd : n.originShift.vec = OriginShift.default.vec.add n.originShift.vec := by
    change _ = V3.add V3.zero _
    rw [V3.zero_add]
  constructor
  · rw [positions_exist_iff, positions_exist_iff]
    exact Iff.rfl
  · intro g g₀ hg hg₀ hn f
    have hn₀ : Consistent { n with originShift := .default } :=
      consistent_moved (n := n) ⟨rfl, rfl⟩ (d := n.originShift.vec.neg) (by
        change OriginShift.default.vec = _
        rw [V3.add_neg_self]; rfl) ha.neg hn
    rw [← positions_complete hg hn, ← positions_complete hg₀ hn₀]
    exact shifted_group_partial h hd ha f

/-- C30 fails with a leading minus sign: in `-P 2 (1 0 0)` the inversion stays at the origin, so the group is not the
group of `-P 2` moved by (1/12, 0, 0). -/
theorem shift_ignores_inversion : (hall "-P 2 (1 0 0)").originShift.vec = ⟨1, 0, 0⟩ ∧
    ∃ f, SpaceGroup (hall "-P 2 (1 0 0)") (moveOrigin ⟨1, 0, 0⟩ f) ∧ ¬ SpaceGroup (hall "-P 2") f := by
  refine ⟨by decide +kernel, moveOrigin ⟨-1, 0, 0⟩ M4.inversion.act, ?_, ?_⟩
  · have e : moveOrigin ⟨1, 0, 0⟩ (moveOrigin ⟨-1, 0, 0⟩ M4.inversion.act) = M4.inversion.act :=
      moveOrigin_neg ⟨-1, 0, 0⟩ _
    rw [e, ← inversion_act]
    exact .inversion (by decide +kernel)
  · intro hf
    have hms : (hall "-P 2").seitzMatrices = some [⟨⟨-1, 0, 0, 0, -1, 0, 0, 0, 1⟩, V3.zero, V3.zero, 1⟩] := by
      decide +kernel
    have hcert := checkCert_sound (n := hall "-P 2") (ms := [⟨⟨-1, 0, 0, 0, -1, 0, 0, 0, 1⟩, V3.zero, V3.zero, 1⟩])
      (L := certList (hall "-P 2") [⟨⟨-1, 0, 0, 0, -1, 0, 0, 0, 1⟩, V3.zero, V3.zero, 1⟩]) (by decide +kernel)
    have hn := hcert.consistent hms
    have hcomp := hf.comp (.inversion (n := hall "-P 2") (by decide +kernel))
    have e : moveOrigin ⟨-1, 0, 0⟩ M4.inversion.act ∘ (fun p : Pt => (⟨-p.x, -p.y, -p.z⟩ : Pt)) =
        (trMat ⟨-2, 0, 0⟩).act := by
      rw [trMat_act, inversion_act]
      funext p
      simp only [moveOrigin, Function.comp, M4.act, M4.inversion, M3.map, M3.one, V3.zero, Pt.addTwelfths,
        Pt.subTwelfths, Pt.mk.injEq]
      refine ⟨?_, ?_, ?_⟩ <;> push_cast <;> ring
    rw [e] at hcomp
    have := hn _ hcomp (isTranslation_trMat _)
    rw [isLatticeTranslation_iff] at this
    revert this
    decide +kernel

/-- C30, exactly when it holds: for a consistent symbol, moving the origin shift by `d/12` conjugates the group by the
translation `d/12` if and only if the symbol has no leading minus sign or `2d/12` is a lattice translation. -/
theorem shifted_group_iff {n n' : HallSymbolNotation} (h : SameButShift n n') {d : V3}
    (hd : n'.originShift.vec = n.originShift.vec.add d) (hn : Consistent n) :
    (∀ f, SpaceGroup n' (moveOrigin d f) ↔ SpaceGroup n f) ↔ ShiftAllowed n.latticeSymbol d := by
  constructor
  · intro hall
    by_cases hm : n.latticeSymbol.minusSign = true
    · right
      have h1 := (hall _).2 (SpaceGroup.inversion (n := n) hm)
      have h2 : SpaceGroup n' (fun p => ⟨-p.x, -p.y, -p.z⟩) := .inversion (h.1 ▸ hm)
      have h3 := h1.comp h2
      have e : moveOrigin d (fun p : Pt => (⟨-p.x, -p.y, -p.z⟩ : Pt)) ∘ (fun p : Pt => (⟨-p.x, -p.y, -p.z⟩ : Pt)) =
          fun p => (p.addTwelfths d).addTwelfths d := by
        funext p
        simp only [moveOrigin, Function.comp, Pt.addTwelfths, Pt.subTwelfths, Pt.mk.injEq]
        refine ⟨?_, ?_, ?_⟩ <;> ring
      rw [e] at h3
      have ht : ∀ p : Pt, (p.addTwelfths d).addTwelfths d =
          ⟨p.x + 2 * (d.x / 12 : ℚ), p.y + 2 * (d.y / 12 : ℚ), p.z + 2 * (d.z / 12 : ℚ)⟩ := by
        intro p
        simp only [Pt.addTwelfths, Pt.mk.injEq]
        refine ⟨?_, ?_, ?_⟩ <;> ring
      have e2 : moveOrigin d (fun p : Pt => (p.addTwelfths d).addTwelfths d) =
          fun p => (p.addTwelfths d).addTwelfths d := by
        have := moveOrigin_translation d ⟨2 * (d.x / 12 : ℚ), 2 * (d.y / 12 : ℚ), 2 * (d.z / 12 : ℚ)⟩
        simp only [funext ht]
        exact this
      rw [← e2] at h3
      exact hn _ ((hall _).1 h3) ⟨⟨2 * (d.x / 12 : ℚ), 2 * (d.y / 12 : ℚ), 2 * (d.z / 12 : ℚ)⟩, ht⟩
    · left; simpa using hm
  · intro ha f
    exact shifted_group_partial h hd ha f

/-- Both sides of `shifted_group_iff` occur: `-P 2` is consistent, a shift by 6/12 is allowed, one by 1/12 is not. -/
example : Consistent (hall "-P 2") ∧ (hall "-P 2").latticeSymbol.minusSign = true := by
  have hms : (hall "-P 2").seitzMatrices = some [⟨⟨-1, 0, 0, 0, -1, 0, 0, 0, 1⟩, V3.zero, V3.zero, 1⟩] := by
    decide +kernel
  exact ⟨(checkCert_sound (n := hall "-P 2") (ms := [⟨⟨-1, 0, 0, 0, -1, 0, 0, 0, 1⟩, V3.zero, V3.zero, 1⟩])
      (L := certList (hall "-P 2") [⟨⟨-1, 0, 0, 0, -1, 0, 0, 0, 1⟩, V3.zero, V3.zero, 1⟩]) (by decide +kernel)).consistent hms,
    by decide +kernel⟩

/-- Hypotheses are met by symbols with and without minus sign. -/
example : ShiftAllowed (hall "-P 4 (6 6 0)").latticeSymbol (hall "-P 4 (6 6 0)").originShift.vec ∧
    ShiftAllowed (hall "P 4 3* (1 5 0)").latticeSymbol (hall "P 4 3* (1 5 0)").originShift.vec := by
  refine ⟨.inr ⟨V3.zero, by decide +kernel, ⟨1, 1, 0⟩, fun p => ?_⟩, .inl (by decide +kernel)⟩
  have e : (hall "-P 4 (6 6 0)").originShift.vec = ⟨6, 6, 0⟩ := by decide +kernel
  rw [e]
  simp only [Pt.addTwelfths, Pt.addCell, V3.zero, Pt.mk.injEq]
  refine ⟨?_, ?_, ?_⟩ <;> push_cast <;> ring

end Verif
