import Verif.Props.Orbits

/-! # Consistency can be read off the listed positions (C84) -/

namespace Verif

/-- The full list, as a user sees it, is closed under products: for any two listed operations some listed operation `==`
their product. -/
def ClosedList (g : GeneralPositions) : Prop :=
  ∀ a ∈ g.deriveFullSets.flatten, ∀ b ∈ g.deriveFullSets.flatten, ∃ c ∈ g.deriveFullSets.flatten,
    M4.eqv (a.mul b) c = true

/-- Every matrix symbol's operation, moved by the origin shift, is listed. -/
def GeneratorsListed (n : HallSymbolNotation) (g : GeneralPositions) : Prop :=
  ∀ s ∈ n.matrixSymbols, ∀ m, s.seitzMatrix = some m →
    Listed g (fun p => (m.act (p.subTwelfths n.originShift.vec)).addTwelfths n.originShift.vec)

/-- The matrix is listed up to whole cells. -/
def InList (g : GeneralPositions) (m : M4) : Prop :=
  ∃ c ∈ g.deriveFullSets.flatten, m.rot = c.rot ∧ V3.Cong m.tr c.tr

theorem full_affine {n : HallSymbolNotation} {g : GeneralPositions} (hg : HasPositions n g) {m : M4}
    (hm : m ∈ g.deriveFullSets.flatten) : m.Affine ∧ SpaceGroup n m.act := by
  obtain ⟨set, hset, hm⟩ := List.mem_flatten.1 hm
  exact positions_in_group hg set hset m hm

theorem core_in_list {n : HallSymbolNotation} {g : GeneralPositions} (hg : HasPositions n g) {c : M4}
    (hc : c ∈ g.corePositionSet) {v : V3} (hv : v ∈ n.latticeSymbol.translations) :
    c.addV v ∈ g.deriveFullSets.flatten := by
  obtain ⟨k, h⟩ := hg
  obtain ⟨st, hF, hp, hl⟩ := final_of_ok h
  obtain ⟨set, hset, hm⟩ := mem_full.2 ⟨v, by rw [hl]; exact hv, c, hc, rfl⟩
  exact List.mem_flatten.2 ⟨set, hset, hm⟩

theorem zero_translation (l : LatticeSymbol) : V3.zero ∈ l.translations := by
  unfold LatticeSymbol.translations
  generalize l.char = c
  cases c <;> decide

/-- A closed list that contains the generators contains the whole group. -/
theorem closed_list_complete {n : HallSymbolNotation} {g : GeneralPositions} (hg : HasPositions n g)
    (h1 : GeneratorsListed n g) (h2 : ClosedList g) {f : Pt → Pt} (hf : SpaceGroup n f) :
    ∀ m : M4, f = m.act → InList g m := by
  have hcore : M4.identity ∈ g.corePositionSet ∧ (n.latticeSymbol.minusSign = true → M4.inversion ∈ g.corePositionSet) := by
    obtain ⟨k, h⟩ := hg
    obtain ⟨st, hF, hp, hl⟩ := final_of_ok h
    exact ⟨hp.mem_iff.2 hF.identity_mem, fun hm => hp.mem_iff.2 (hF.inversion_mem hm)⟩
  have htr : ∀ v : V3, V3.Cong v V3.zero → ∀ w ∈ n.latticeSymbol.translations, InList g (trMat (w.add v)) := by
    intro v hv w hw
    refine ⟨_, core_in_list hg hcore.1 hw, rfl, ?_⟩
    refine V3.Cong.trans ?_ (V3.cong_map_tmod _).symm
    have := (V3.Cong.refl w).add hv
    rw [V3.add_zero] at this
    have e : (M4.identity).tr.add w = w := V3.zero_add w
    rw [e]
    exact this
  have hmul : ∀ a b : M4, InList g a → InList g b →
      InList g ⟨a.rot.mul b.rot, (a.rot.mulVec b.tr).add a.tr, V3.zero, 1⟩ := by
    rintro a b ⟨c, hc, c1, c2⟩ ⟨d, hd, d1, d2⟩
    obtain ⟨e, he, h⟩ := h2 c hc d hd
    obtain ⟨e1, e2⟩ := M4.eqv_iff.1 h
    have hda := (full_affine hg hd).1
    rw [M4.mul_rot hda] at e1
    refine ⟨e, he, by rw [← e1, c1, d1], ?_⟩
    refine V3.Cong.trans ?_ e2
    refine V3.Cong.trans ?_ (M4.mul_tr_cong hda).symm
    simp only []
    rw [c1]
    exact (M3.mulVec_cong _ d2).add c2
  have congr : ∀ m m' : M4, m.act = m'.act → InList g m' → InList g m := by
    rintro m m' e ⟨c, hc, h⟩
    obtain ⟨e1, e2⟩ := M4.act_inj e
    exact ⟨c, hc, by rw [e1, e2]; exact h⟩
  induction hf with
  | one =>
    intro m e
    refine congr m (trMat (V3.zero.add V3.zero)) ?_ (htr _ (.refl _) _ (zero_translation _))
    rw [← e, trMat, V3.add_zero, M4.act_mk_one _ _ _ rfl]
  | cell k =>
    intro m e
    refine congr m (trMat (V3.zero.add (V3.smul 12 k))) ?_ (htr _ ?_ _ (zero_translation _))
    · rw [← e, V3.zero_add, cell_act]
    · refine ⟨?_, ?_, ?_⟩ <;> simp [V3.smul, V3.zero]
  | @centring v hv =>
    intro m e
    refine congr m (trMat (v.add V3.zero)) ?_ (htr _ (.refl _) _ hv)
    rw [← e, V3.add_zero, trMat_act]
  | inversion hm =>
    intro m e
    refine congr m M4.inversion (by rw [← e, inversion_act]) ?_
    refine ⟨_, core_in_list hg (hcore.2 hm) (zero_translation _), rfl, ?_⟩
    refine V3.Cong.trans ?_ (V3.cong_map_tmod _).symm
    rw [V3.add_zero]
    exact .refl _
  | @generator s a hs ha =>
    intro m e
    obtain ⟨set, hset, c, hc, hsame⟩ := h1 s hs a ha
    rw [e] at hsame
    exact ⟨c, List.mem_flatten.2 ⟨set, hset, hc⟩, M4.cong_of_sameModCell hsame⟩
  | @comp f f' hf hf' ih ih' =>
    intro m e
    obtain ⟨a, rfl, _, _⟩ := hf.isOp
    obtain ⟨b, rfl, _, _⟩ := hf'.isOp
    rw [M4.act_comp] at e
    exact congr m _ e.symm (hmul a b (ih a rfl) (ih' b rfl))
  | @inv f f' hf e1 e2 ih =>
    intro m e
    obtain ⟨a, rfl, _, hu⟩ := hf.isOp
    -- left multiplication by `a` permutes the list
    have key : ∀ x ∈ g.deriveFullSets.flatten, ∃ y ∈ g.deriveFullSets.flatten,
        a.rot.mul x.rot = y.rot ∧ V3.Cong ((a.rot.mulVec x.tr).add a.tr) y.tr := by
      intro x hx
      obtain ⟨y, hy, h⟩ := hmul a x (ih a rfl) ⟨x, hx, rfl, .refl _⟩
      exact ⟨y, hy, h⟩
    choose! φ p1 p2 p3 using key
    have hfin : {x | x ∈ g.deriveFullSets.flatten}.Finite := List.finite_toSet _
    have hmaps : Set.MapsTo φ {x | x ∈ g.deriveFullSets.flatten} {x | x ∈ g.deriveFullSets.flatten} := fun x hx => p1 x hx
    have hback : ∀ u v : V3, V3.Cong ((a.rot.mulVec u).add a.tr) ((a.rot.mulVec v).add a.tr) → V3.Cong u v := by
      intro u v h
      have h' := h.add (V3.Cong.refl a.tr.neg)
      have e : ∀ w : V3, (w.add a.tr).add a.tr.neg = w := fun w => by rw [V3.add_assoc, V3.add_neg_self, V3.add_zero]
      rw [e, e] at h'
      have h'' := M3.mulVec_cong a.rot.uinv h'
      rwa [M3.mulVec_mulVec, M3.mulVec_mulVec, M3.uinv_mul hu, M3.one_mulVec, M3.one_mulVec] at h''
    have hinj : Set.InjOn φ {x | x ∈ g.deriveFullSets.flatten} := by
      intro x hx y hy hxy
      have r1 := p2 x hx
      have r2 := p2 y hy
      have t1 := p3 x hx
      have t2 := p3 y hy
      rw [← hxy] at r2 t2
      exact full_unique hg hx hy (M4.sameModCell_of_cong (M3.mul_left_cancel hu (r1.trans r2.symm))
        (hback _ _ (t1.trans t2.symm)))
    have hsurj := ((hfin.injOn_iff_bijOn_of_mapsTo hmaps).1 hinj).surjOn
    obtain ⟨x, hx, hxe⟩ := hsurj (core_in_list hg hcore.1 (zero_translation _))
    have r1 := p2 x hx
    have t1 := p3 x hx
    rw [hxe] at r1 t1
    have hm : a.act ∘ m.act = id := by rw [← e]; exact e1
    rw [M4.act_comp] at hm
    have hid : id = (trMat V3.zero).act := by rw [trMat, M4.act_mk_one _ _ _ rfl]
    obtain ⟨s1, s2⟩ := M4.act_inj (hm.trans hid)
    refine ⟨x, hx, M3.mul_left_cancel hu (s1.trans ?_), hback _ _ ?_⟩
    · rw [r1]; rfl
    · simp only [] at s2
      rw [s2]
      refine V3.Cong.trans ?_ t1.symm
      refine V3.Cong.trans ?_ (V3.cong_map_tmod _).symm
      exact .refl _

/-- C84. A notation is consistent exactly when its result shows it: the operations of the matrix symbols are listed, the
full list is closed under products, and no rotation part occurs twice among the core positions. -/
theorem consistent_iff_visible {n : HallSymbolNotation} {g : GeneralPositions} (hg : HasPositions n g) :
    Consistent n ↔ GeneratorsListed n g ∧ ClosedList g ∧ (g.corePositionSet.map M4.rot).Nodup := by
  constructor
  · intro hn
    refine ⟨?_, ?_, ?_⟩
    · intro s hs m hm
      exact (positions_complete hg hn _).1 (.generator hs hm)
    · intro a ha b hb
      obtain ⟨ha1, ha2⟩ := full_affine hg ha
      obtain ⟨hb1, hb2⟩ := full_affine hg hb
      obtain ⟨c, hc, h⟩ := full_pick hg hn (inGroup_mulStable n a b ha1 hb1 ha2 hb2)
      exact ⟨c, hc, M4.eqv_iff.2 (M4.cong_of_sameModCell h)⟩
    · obtain ⟨k, h⟩ := hg
      obtain ⟨st, hF, hp, hl⟩ := final_of_ok h
      rw [(hp.map M4.rot).nodup_iff]
      exact hF.rot_nodup hn
  · rintro ⟨h1, h2, h3⟩ f hf ⟨q, hq⟩
    obtain ⟨m, rfl, _, _⟩ := hf.isOp
    obtain ⟨c, hc, c1, c2⟩ := closed_list_complete hg h1 h2 hf m rfl
    have hrot : m.rot = M3.one := by
      have e0 := hq ⟨0, 0, 0⟩
      have e1 := hq ⟨1, 0, 0⟩
      have e2 := hq ⟨0, 1, 0⟩
      have e3 := hq ⟨0, 0, 1⟩
      simp only [M4.act, Pt.mk.injEq, mul_zero, mul_one, zero_add, add_zero] at e0 e1 e2 e3
      obtain ⟨a1, a2, a3⟩ := e0
      obtain ⟨b1, b2, b3⟩ := e1
      obtain ⟨d1, d2, d3⟩ := e2
      obtain ⟨f1, f2, f3⟩ := e3
      ext <;> simp only [M3.one] <;> apply Int.cast_injective (α := ℚ) <;> push_cast <;> linarith
    obtain ⟨set, hset, hm⟩ := List.mem_flatten.1 hc
    obtain ⟨v, hv, d, hd, rfl⟩ := mem_full.1 ⟨set, hset, hm⟩
    have hid : d = M4.identity := by
      have hi : M4.identity ∈ g.corePositionSet := List.mem_of_mem_head? (positions_normalised hg).2
      have hdr : d.rot = M4.identity.rot := by
        change m.rot = d.rot at c1
        rw [← c1, hrot]; rfl
      exact List.inj_on_of_nodup_map h3 hd hi hdr
    subst hid
    obtain ⟨k, h⟩ := hg
    obtain ⟨st, hF, hp, hl⟩ := final_of_ok h
    have e : m.act = (trMat m.tr).act := funext fun p => M4.act_congr_rot_tr (b := trMat m.tr) hrot rfl p
    rw [e, isLatticeTranslation_iff]
    refine ⟨v, by rw [← hl]; exact hv, ?_⟩
    refine c2.trans ((V3.cong_map_tmod _).trans ?_)
    exact .refl _

/-- The conditions are met by `-C 2c 2`. -/
example : GeneratorsListed sampleN sampleG ∧ ClosedList sampleG ∧ (sampleG.corePositionSet.map M4.rot).Nodup :=
  (consistent_iff_visible sample_positions).1 sample_consistent

/-- Each condition can fail: `A 4` lists its generator and each rotation once, but its list is not closed. -/
example : HasPositions (hall "A 4") (positionsOf "A 4") ∧ ((positionsOf "A 4").corePositionSet.map M4.rot).Nodup ∧
    ¬ ClosedList (positionsOf "A 4") := by
  refine ⟨positionsOf_spec (by decide +kernel), by decide +kernel, ?_⟩
  unfold ClosedList
  decide +kernel

/-- `P 1n` lists its generator in a closed list, but the rotation part 1 twice. -/
example : HasPositions (hall "P 1n") (positionsOf "P 1n") ∧ ClosedList (positionsOf "P 1n") ∧
    ¬ ((positionsOf "P 1n").corePositionSet.map M4.rot).Nodup := by
  refine ⟨positionsOf_spec (by decide +kernel), ?_, by decide +kernel⟩
  unfold ClosedList
  decide +kernel

end Verif
