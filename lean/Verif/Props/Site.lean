import Verif.Spec.Site
import Verif.Props.Orbits
import Verif.Props.Visible
import Verif.Props.Classes
import Verif.Props.Subgroups

/-! # Site symmetry (C100) -/

namespace Verif

/-- The rotations of the symmetries of a site. -/
def SiteRotations (n : HallSymbolNotation) (p : Pt) : Set M3 :=
  {r | ∃ f, SiteSymmetry n p f ∧ ∃ m : M4, m.rot = r ∧ f = m.act}

/-- Two operations with the same rotation that agree at a point agree everywhere. -/
theorem act_eq_of_rot {a b : M4} (h : a.rot = b.rot) {p : Pt} {k : V3} (hp : a.act p = (b.act p).addCell k) :
    ∀ x, a.act x = (b.act x).addCell k := by
  intro x
  simp only [M4.act, Pt.addCell, h, Pt.mk.injEq] at hp ⊢
  obtain ⟨h1, h2, h3⟩ := hp
  refine ⟨?_, ?_, ?_⟩ <;> linarith

theorem addCell_zero (p : Pt) : p.addCell V3.zero = p := by simp [Pt.addCell, V3.zero]

theorem addCell_neg (p : Pt) (k : V3) : (p.addCell k).addCell k.neg = p := by simp [Pt.addCell, V3.neg]

/-- C100. For a consistent notation and any point `p`: to each listed operation that takes `p` to itself up to whole cells
belongs exactly one symmetry of the site, differing from it by whole cells; to each symmetry of the site exactly one listed
operation; and a symmetry of a site is known by its rotation part. -/
theorem site_symmetry_listed {n : HallSymbolNotation} {g : GeneralPositions} (hg : HasPositions n g) (hn : Consistent n) (p : Pt) :
    (∀ m ∈ g.deriveFullSets.flatten, SameSite (m.act p) p → ∃! f, SiteSymmetry n p f ∧ SameModCell f m.act) ∧
    (∀ f, SiteSymmetry n p f → ∃! m, m ∈ g.deriveFullSets.flatten ∧ SameModCell f m.act) ∧
    ∀ a b : M4, SiteSymmetry n p a.act → SiteSymmetry n p b.act → a.rot = b.rot → a.act = b.act := by
  refine ⟨?_, ?_, ?_⟩
  · rintro m hm ⟨k, hk⟩
    refine ⟨fun x => (m.act x).addCell k, ⟨⟨.comp (.cell k) (full_affine hg hm).2, hk.symm⟩, k, fun _ => rfl⟩, ?_⟩
    rintro f ⟨⟨-, hf⟩, k', hk'⟩
    funext x
    have e : (m.act p).addCell k' = (m.act p).addCell k := by rw [← hk', hf, ← hk]
    have : k' = k := by
      simp only [Pt.addCell, Pt.mk.injEq, add_right_inj, Int.cast_inj] at e
      obtain ⟨e1, e2, e3⟩ := e
      ext <;> assumption
    rw [hk', this]
  · rintro f ⟨hf, -⟩
    obtain ⟨m, hm, h⟩ := full_pick hg hn hf
    refine ⟨m, ⟨hm, h⟩, ?_⟩
    rintro m' ⟨hm', k', h'⟩
    obtain ⟨k, h⟩ := h
    refine full_unique hg hm' hm ⟨k.add k'.neg, fun x => ?_⟩
    have e := h' x
    rw [h x] at e
    simp only [Pt.addCell, Pt.mk.injEq, V3.add, V3.neg, Int.cast_add, Int.cast_neg] at e ⊢
    obtain ⟨e1, e2, e3⟩ := e
    ext <;> simp only <;> linarith
  · intro a b ha hb h
    funext x
    have := act_eq_of_rot h (p := p) (k := V3.zero) (by rw [addCell_zero, ha.2, hb.2]) x
    rwa [addCell_zero] at this

theorem siteRotations_sub (n : HallSymbolNotation) (p : Pt) : SiteRotations n p ⊆ PointGroup n := by
  rintro r ⟨f, hf, m, h1, h2⟩
  exact ⟨f, hf.1, m, h1, h2⟩

theorem siteRotations_group {n : HallSymbolNotation} {g : GeneralPositions} (hg : HasPositions n g) (p : Pt) :
    FiniteRotations (SiteRotations n p) := by
  refine ⟨(pointGroup_rotations hg).1.finite.subset (siteRotations_sub n p), ?_, ?_⟩
  · exact ⟨id, ⟨.one, rfl⟩, M4.one, rfl, (M4.act_mk_one _ _ _ rfl).symm⟩
  · rintro _ ⟨f, hf, m, rfl, rfl⟩ _ ⟨f', hf', m', rfl, rfl⟩
    refine ⟨m.act ∘ m'.act, ⟨hf.1.comp hf'.1, ?_⟩, _, rfl, M4.act_comp m m'⟩
    simp only [Function.comp, hf'.2, hf.2]

/-- The listed operations that take `p` to itself up to whole cells have the rotations of the site, each once. -/
theorem site_list {n : HallSymbolNotation} {g : GeneralPositions} (hg : HasPositions n g) (hn : Consistent n) (p : Pt)
    (P : M3 → Bool) :
    (open Classical in g.deriveFullSets.flatten.countP (fun m => decide (SameSite (m.act p) p) && P m.rot)) =
      {r ∈ SiteRotations n p | P r = true}.ncard := by
  classical
  rw [List.countP_eq_length_filter]
  have hnd : ((g.deriveFullSets.flatten.filter (fun m => decide (SameSite (m.act p) p) && P m.rot)).map M4.rot).Nodup := by
    refine List.Nodup.map_on ?_ ((full_nodup hg).filter _)
    intro a ha b hb h
    simp only [List.mem_filter, Bool.and_eq_true, decide_eq_true_iff] at ha hb
    obtain ⟨ha, ⟨k, hk⟩, -⟩ := ha
    obtain ⟨hb, ⟨k', hk'⟩, -⟩ := hb
    refine full_unique hg ha hb ⟨k'.add k.neg, act_eq_of_rot h (p := p) ?_⟩
    have h1 := congrArg Pt.x hk
    have h2 := congrArg Pt.y hk
    have h3 := congrArg Pt.z hk
    have g1 := congrArg Pt.x hk'
    have g2 := congrArg Pt.y hk'
    have g3 := congrArg Pt.z hk'
    simp only [Pt.addCell] at h1 h2 h3 g1 g2 g3
    ext <;> simp only [Pt.addCell, V3.add, V3.neg, Int.cast_add, Int.cast_neg] <;> linarith
  have hs : {r ∈ SiteRotations n p | P r = true} =
      (((g.deriveFullSets.flatten.filter (fun m => decide (SameSite (m.act p) p) && P m.rot)).map M4.rot).toFinset : Set M3) := by
    ext r
    simp only [Set.mem_ofPred_eq, List.coe_toFinset, List.mem_filter, List.mem_map, Bool.and_eq_true, decide_eq_true_iff]
    constructor
    · rintro ⟨⟨f, hf, m, rfl, rfl⟩, hP⟩
      obtain ⟨m', hm', h⟩ := full_pick hg hn hf.1
      have e := (M4.cong_of_sameModCell h).1
      have hsite := h.site p
      rw [hf.2] at hsite
      exact ⟨m', ⟨hm', hsite, e ▸ hP⟩, e.symm⟩
    · rintro ⟨m, ⟨hm, ⟨k, hk⟩, hP⟩, rfl⟩
      refine ⟨⟨fun x => (m.act x).addCell k, ⟨.comp (.cell k) (full_affine hg hm).2, hk.symm⟩,
        ⟨m.rot, ⟨m.tr.x + 12 * k.x, m.tr.y + 12 * k.y, m.tr.z + 12 * k.z⟩, V3.zero, 1⟩, rfl, ?_⟩, hP⟩
      funext x
      ext <;> simp only [M4.act, Pt.addCell, Int.cast_add, Int.cast_mul, Int.cast_ofNat] <;> ring
  rw [hs, Set.ncard_coe_finset, List.toFinset_card_of_nodup hnd, List.length_map]

theorem siteCount_eq {n : HallSymbolNotation} {g : GeneralPositions} (hg : HasPositions n g) (hn : Consistent n) (p : Pt)
    (t : RotationType) :
    siteCount g.deriveFullSets.flatten p t = {r ∈ SiteRotations n p | typeB t r = true}.ncard := by
  classical
  rw [← site_list hg hn p (typeB t)]
  unfold siteCount hits
  rw [List.countP_filter]
  refine List.countP_congr fun m hm => ?_
  rw [Bool.and_eq_true, Bool.and_eq_true, decide_eq_true_iff, decide_eq_true_iff, rotationType_rot (full_affine hg hm).1, typeB_iff]

theorem hits_eq {n : HallSymbolNotation} {g : GeneralPositions} (hg : HasPositions n g) (hn : Consistent n) (p : Pt) :
    hits g.deriveFullSets.flatten p p = (SiteRotations n p).ncard := by
  classical
  have := site_list hg hn p (fun _ => true)
  simp only [Bool.and_true] at this
  unfold hits
  rw [this]
  congr 1
  ext r
  simp

theorem types_total (L : List M4) (h : ∀ m ∈ L, ∃ t, m.rotationType = some t) :
    L.length = ((allTypes.map fun t => (L.filter fun m => decide (m.rotationType = some t)).length)).sum := by
  induction L with
  | nil => decide
  | cons m L ih =>
    obtain ⟨t, ht⟩ := h m (by simp)
    have := ih (fun m hm => h m (by simp [hm]))
    rw [List.length_cons, this]
    simp only [allTypes, List.map_cons, List.map_nil, List.sum_cons, List.sum_nil, List.filter_cons, ht]
    cases t <;> simp <;> omega

/-- C100. The symmetries of a site form one of the 32 crystal classes: for a consistent notation and any point, the listed
operations that take the point to itself up to whole cells, counted by `rotation_type`, are those of a class, whose order
divides the number of general positions. -/
theorem site_symmetry_class {n : HallSymbolNotation} {g : GeneralPositions} (hg : HasPositions n g) (hn : Consistent n) (p : Pt) :
    ∃ k cc, 1 ≤ k ∧ k ≤ 230 ∧ crystalClass k = some cc ∧ (∀ t, siteCount g.deriveFullSets.flatten p t = cc.get t) ∧
      hits g.deriveFullSets.flatten p p = cc.order ∧ cc.order ∣ g.numOfGeneralPos := by
  classical
  have hS := siteRotations_group hg p
  have hsub := siteRotations_sub n p
  obtain ⟨c, hc, h⟩ : ∃ c ∈ crystalClasses, ∀ t, {r ∈ SiteRotations n p | typeB t r = true}.ncard = c.2.get t := by
    rcases fits_common_cell (fun r hr => pointGroup_fits_cell hg r (hsub hr)) hS.one with h | h
    · exact Subs.class_of_cubic hS.one hS.mul h
    · exact Subs.class_of_hexagonal hS.one hS.mul h
  have hall : ∀ c ∈ crystalClasses, 1 ≤ c.1 ∧ c.1 ≤ 230 ∧ crystalClass c.1 = some c.2 := by decide +kernel
  obtain ⟨a1, a2, a3⟩ := hall c hc
  have hcount : ∀ t, siteCount g.deriveFullSets.flatten p t = c.2.get t := fun t => (siteCount_eq hg hn p t).trans (h t)
  have horder : hits g.deriveFullSets.flatten p p = c.2.order := by
    have hsome : ∀ m ∈ g.deriveFullSets.flatten, ∃ t, m.rotationType = some t := by
      intro m hm
      have hf := fits_finiteOrder (pointGroup_fits_cell hg m.rot ⟨_, (full_affine hg hm).2, m, rfl, rfl⟩)
      obtain ⟨t, _, ht, _⟩ := rotation_type_correct m (full_affine hg hm).1 hf
      exact ⟨t, ht⟩
    have e := types_total (g.deriveFullSets.flatten.filter fun m => decide (SameSite (m.act p) p))
      (fun m hm => hsome m (List.mem_filter.1 hm).1)
    have e2 : ∀ t, ((g.deriveFullSets.flatten.filter fun m => decide (SameSite (m.act p) p)).filter
        fun m => decide (m.rotationType = some t)).length = c.2.get t := by
      intro t
      rw [← hcount t, siteCount, hits, List.countP_eq_length_filter, List.filter_filter, List.filter_filter]
      congr 1
      refine List.filter_congr fun m _ => ?_
      rw [Bool.and_comm]
    rw [hits, List.countP_eq_length_filter, e]
    simp only [allTypes, List.map_cons, List.map_nil, List.sum_cons, List.sum_nil, e2, ClassCounts.get, ClassCounts.order]
    omega
  refine ⟨c.1, c.2, a1, a2, a3, hcount, horder, ?_⟩
  rw [← horder, hits_eq hg hn, (positions_form_group hg hn).2.2.2]
  exact ncard_dvd hS (pointGroup_rotations hg).1 (pointGroup_rotations hg).2 hsub

theorem M3.trace_mul_comm (a b : M3) : (a.mul b).trace = (b.mul a).trace := by simp only [M3.trace, M3.mul]; ring

theorem typeB_conj {r : M3} (h : r.Unimod) (t : RotationType) (x : M3) : typeB t ((r.mul x).mul r.uinv) = typeB t x := by
  have e1 : ((r.mul x).mul r.uinv).trace = x.trace := by
    rw [M3.trace_mul_comm, ← M3.mul_assoc, M3.uinv_mul h, M3.one_mul]
  have e2 : ((r.mul x).mul r.uinv).det = x.det := by
    have := congrArg M3.det (M3.mul_uinv h)
    rw [M3.det_mul] at this
    rw [M3.det_mul, M3.det_mul, mul_comm r.det, mul_assoc, this]
    simp [M3.det, M3.one]
  rw [typeB, typeB, e1, e2]

/-- C100. Equivalent points have conjugate site symmetries: if the operation `a` of the group takes `p` to `q`, then `f`
leaves `p` in place exactly when `a f a⁻¹` leaves `q` in place; in particular both sites have the same crystal class. -/
theorem site_symmetry_conjugate {n : HallSymbolNotation} {a : Pt → Pt} (ha : SpaceGroup n a) (p : Pt) :
    (∀ f f', a ∘ f = f' ∘ a → (SiteSymmetry n p f ↔ SiteSymmetry n (a p) f')) ∧
    ∀ g, HasPositions n g → Consistent n → ∀ t,
      siteCount g.deriveFullSets.flatten p t = siteCount g.deriveFullSets.flatten (a p) t := by
  obtain ⟨m, rfl, hm, hu⟩ := ha.isOp
  have i1 := M4.act_uinv hu
  have i2 := M4.uinv_act hu
  have hinv : SpaceGroup n m.uinv.act := ha.inv i1 i2
  have key : ∀ f f', m.act ∘ f = f' ∘ m.act → (SiteSymmetry n p f ↔ SiteSymmetry n (m.act p) f') := by
    intro f f' h
    have e1 : f' = m.act ∘ f ∘ m.uinv.act := by
      rw [← Function.comp_assoc, h, Function.comp_assoc, i1, Function.comp_id]
    have e2 : f = m.uinv.act ∘ f' ∘ m.act := by
      rw [← h, ← Function.comp_assoc, i2, Function.id_comp]
    have hp := congrFun h p
    simp only [Function.comp] at hp
    constructor
    · rintro ⟨h1, h2⟩
      exact ⟨e1 ▸ ha.comp (h1.comp hinv), by rw [← hp, h2]⟩
    · rintro ⟨h1, h2⟩
      refine ⟨e2 ▸ hinv.comp (h1.comp ha), ?_⟩
      have := congrFun e2 p
      simp only [Function.comp, h2] at this
      rw [this]
      exact congrFun i2 p
  refine ⟨key, fun g hg hn t => ?_⟩
  rw [siteCount_eq hg hn, siteCount_eq hg hn]
  have himg : {r ∈ SiteRotations n (m.act p) | typeB t r = true} =
      (fun x => (m.rot.mul x).mul m.rot.uinv) '' {r ∈ SiteRotations n p | typeB t r = true} := by
    ext r
    simp only [Set.mem_ofPred_eq, Set.mem_image]
    constructor
    · rintro ⟨⟨f', hf', m', rfl, rfl⟩, ht⟩
      have e : m.act ∘ (m.uinv.act ∘ m'.act ∘ m.act) = m'.act ∘ m.act := by
        rw [← Function.comp_assoc, i1, Function.id_comp]
      have hf := (key _ _ e).2 hf'
      have er : (m.rot.mul ((m.rot.uinv.mul m'.rot).mul m.rot)).mul m.rot.uinv = m'.rot := by
        rw [M3.mul_assoc m.rot.uinv, ← M3.mul_assoc m.rot, M3.mul_uinv hu, M3.one_mul, M3.mul_assoc, M3.mul_uinv hu, M3.mul_one]
      refine ⟨(m.rot.uinv.mul m'.rot).mul m.rot, ⟨⟨_, hf, ?_⟩, ?_⟩, er⟩
      · rw [← Function.comp_assoc, M4.act_comp m.uinv m', M4.act_comp]
        exact ⟨_, rfl, rfl⟩
      · rw [← typeB_conj hu, er]; exact ht
    · rintro ⟨x, ⟨⟨f, hf, m', rfl, rfl⟩, ht⟩, rfl⟩
      refine ⟨⟨m.act ∘ m'.act ∘ m.uinv.act, (key m'.act _ ?_).1 hf, ?_⟩, by rw [typeB_conj hu]; exact ht⟩
      · rw [Function.comp_assoc, Function.comp_assoc, i2, Function.comp_id]
      · rw [← Function.comp_assoc, M4.act_comp m m', M4.act_comp]
        exact ⟨_, rfl, rfl⟩
  rw [himg, Set.ncard_image_of_injective]
  intro x y hxy
  have := congrArg (fun z => (m.rot.uinv.mul z).mul m.rot) hxy
  simp only [M3.mul_assoc, M3.uinv_mul hu, M3.mul_one] at this
  rwa [← M3.mul_assoc, ← M3.mul_assoc, M3.uinv_mul hu, M3.one_mul, M3.one_mul] at this

/-- The hypotheses hold, with a symmetry other than the identity, for `P 4` and a point on its fourfold axis; the point at
(1/2, 1/2, z) of another site has four symmetries too, one halfway between the axes only two. -/
example : HasPositions (hall "P 4") (positionsOf "P 4") ∧ Consistent (hall "P 4") ∧
    SiteSymmetry (hall "P 4") ⟨0, 0, 1 / 3⟩ (fun p => ⟨-p.y, p.x, p.z⟩) ∧
    SiteSymmetry (hall "P 4") ⟨0, 1 / 2, 1 / 3⟩ (fun p => ⟨-p.x, -p.y + 1, p.z⟩) ∧
    ¬ SiteSymmetry (hall "P 4") ⟨0, 1 / 2, 1 / 3⟩ (fun p => ⟨-p.y, p.x, p.z⟩) := by
  have hf : SpaceGroup (hall "P 4") (fun p => ⟨-p.y, p.x, p.z⟩) := by
    have hs : (⟨false, .N4, .None, .None, .Z, none⟩ : MatrixSymbol) ∈ (hall "P 4").matrixSymbols := by decide +kernel
    have := SpaceGroup.generator (n := hall "P 4") hs
      (g := ⟨⟨0, -1, 0, 1, 0, 0, 0, 0, 1⟩, ⟨0, 0, 0⟩, ⟨0, 0, 0⟩, 1⟩) (by decide +kernel)
    have hv : (hall "P 4").originShift.vec = ⟨0, 0, 0⟩ := by decide +kernel
    rw [hv] at this
    convert this using 2
    simp [M4.act, Pt.subTwelfths, Pt.addTwelfths]
  refine ⟨positionsOf_spec (by decide +kernel), consistent_by_check (by decide +kernel), ⟨hf, by simp⟩, ⟨?_, ?_⟩, ?_⟩
  · have := SpaceGroup.comp (.cell ⟨0, 1, 0⟩) (hf.comp hf)
    convert this using 2
    simp [Pt.addCell]
  · simp only [Pt.mk.injEq]; norm_num
  · rintro ⟨-, h⟩
    simp only [Pt.mk.injEq] at h
    norm_num at h

end Verif
