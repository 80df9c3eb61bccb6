import Verif.Props.Subgroups
import Verif.Spec.Relabel

/-! # Renaming the axes and the mirror image (C87, C88) -/

namespace Verif

/-- Rows and columns of a matrix with the axes renamed. -/
def M4.relabel (m : M4) : M4 :=
  ⟨⟨m.rot.m33, m.rot.m31, m.rot.m32, m.rot.m13, m.rot.m11, m.rot.m12, m.rot.m23, m.rot.m21, m.rot.m22⟩,
    ⟨m.tr.z, m.tr.x, m.tr.y⟩, ⟨m.bot.z, m.bot.x, m.bot.y⟩, m.w⟩

theorem M4.relabel_act (m : M4) (p : Pt) : m.relabel.act p = (m.act p.unlabel).relabel := by
  ext <;> simp only [M4.relabel, M4.act, Pt.unlabel, Pt.relabel] <;> ring

theorem sum_relabel (l : List TranslationSymbol) :
    sumTranslations (l.map TranslationSymbol.relabel) =
      ⟨(sumTranslations l).z, (sumTranslations l).x, (sumTranslations l).y⟩ := by
  unfold sumTranslations
  have key : ∀ (l : List TranslationSymbol) (a : V3),
      (l.map TranslationSymbol.relabel).foldl (fun (acc : V3) (s : TranslationSymbol) => acc.add s.vector) ⟨a.z, a.x, a.y⟩ =
        ⟨(l.foldl (fun (acc : V3) (s : TranslationSymbol) => acc.add s.vector) a).z, (l.foldl (fun (acc : V3) (s : TranslationSymbol) => acc.add s.vector) a).x,
          (l.foldl (fun (acc : V3) (s : TranslationSymbol) => acc.add s.vector) a).y⟩ := by
    intro l
    induction l with
    | nil => intro a; rfl
    | cons t l ih =>
      intro a
      simp only [List.map_cons, List.foldl_cons]
      rw [← ih]
      congr 1
      cases t <;> rfl
  exact key l V3.zero

/-- The operation of the renamed symbol is the renamed operation. -/
theorem relabel_symbol (s : MatrixSymbol) : s.relabel.seitzMatrix = s.seitzMatrix.map M4.relabel := by
  obtain ⟨sg, f, sub, d, a, l⟩ := s
  have hrot : rotationMatrix f d a.relabel = (rotationMatrix f d a).map M4.relabel := by
    cases f <;> cases d <;> cases a <;> rfl
  have hlet : ∀ m : M4, setTranslationFromSymbols (MatrixSymbol.relabel ⟨sg, f, sub, d, a, l⟩) m.relabel =
      (setTranslationFromSymbols ⟨sg, f, sub, d, a, l⟩ m).relabel := by
    intro m
    cases l with
    | none => rfl
    | some l =>
      simp only [setTranslationFromSymbols, MatrixSymbol.relabel, Option.map_some, sum_relabel]
      rfl
  have htr : ∀ m : M4, setTransform (MatrixSymbol.relabel ⟨sg, f, sub, d, a, l⟩) m.relabel =
      (setTransform ⟨sg, f, sub, d, a, l⟩ m).map M4.relabel := by
    intro m
    unfold setTransform MatrixSymbol.relabel
    simp only []
    cases screwComponent f sub with
    | none => rfl
    | some q =>
      cases q with
      | none => rfl
      | some q => cases a <;> rfl
  unfold MatrixSymbol.seitzMatrix
  change (match rotationMatrix f d a.relabel with | none => none | some rot => _) = _
  rw [hrot]
  cases rotationMatrix f d a with
  | none => rfl
  | some r =>
    simp only [Option.map_some]
    rw [htr]
    cases setTransform ⟨sg, f, sub, d, a, l⟩ r with
    | none => rfl
    | some m =>
      simp only [Option.map_some]
      rw [hlet]
      cases sg <;> rfl

theorem Pt.relabel_unlabel (p : Pt) : p.unlabel.relabel = p := rfl
theorem Pt.unlabel_relabel (p : Pt) : p.relabel.unlabel = p := rfl

/-- `f` in renamed coordinates. -/
def conj (e e' : Pt → Pt) (f : Pt → Pt) : Pt → Pt := e ∘ f ∘ e'

/-- Transport of a whole group along a bijection of space that sends generators to elements. -/
theorem SpaceGroup.transport {n n' : HallSymbolNotation} {e e' : Pt → Pt} (h1 : e ∘ e' = id) (h2 : e' ∘ e = id)
    (hc : ∀ k : V3, SpaceGroup n' (conj e e' (fun p => p.addCell k)))
    (hv : ∀ v ∈ n.latticeSymbol.translations, SpaceGroup n' (conj e e' (fun p => p.addTwelfths v)))
    (hi : n.latticeSymbol.minusSign = true → SpaceGroup n' (conj e e' (fun p => ⟨-p.x, -p.y, -p.z⟩)))
    (hg : ∀ s ∈ n.matrixSymbols, ∀ g, s.seitzMatrix = some g → SpaceGroup n'
      (conj e e' (fun p => (g.act (p.subTwelfths n.originShift.vec)).addTwelfths n.originShift.vec)))
    {f : Pt → Pt} (hf : SpaceGroup n f) : SpaceGroup n' (conj e e' f) := by
  induction hf with
  | one => 
    have : conj e e' id = id := h1
    rw [this]; exact .one
  | cell k => exact hc k
  | centring h => exact hv _ h
  | inversion h => exact hi h
  | generator hs hm => exact hg _ hs _ hm
  | @comp f g _ _ ih1 ih2 =>
    have : conj e e' (f ∘ g) = conj e e' f ∘ conj e e' g := by
      funext p
      change e (f (g (e' p))) = e (f ((e' ∘ e) (g (e' p))))
      rw [h2]; rfl
    rw [this]; exact .comp ih1 ih2
  | @inv f g _ a b ih =>
    refine .inv ih ?_ ?_
    · funext p
      change e (f ((e' ∘ e) (g (e' p)))) = p
      rw [h2]
      change e ((f ∘ g) (e' p)) = p
      rw [a]; exact congrFun h1 p
    · funext p
      change e (g ((e' ∘ e) (f (e' p)))) = p
      rw [h2]
      change e ((g ∘ f) (e' p)) = p
      rw [b]; exact congrFun h1 p

theorem relabel_translations {l : Lattices} (h : l ≠ .R) {v : V3} (hv : v ∈ l.translations) :
    (⟨v.z, v.x, v.y⟩ : V3) ∈ l.relabel.translations := by
  cases l <;> first
    | (exact absurd rfl h)
    | (revert v; decide)

theorem relabel_group_one {n : HallSymbolNotation} (h : n.latticeSymbol.char ≠ .R) {f : Pt → Pt} (hf : SpaceGroup n f) :
    SpaceGroup n.relabel (conj Pt.relabel Pt.unlabel f) := by
  refine SpaceGroup.transport rfl rfl ?_ ?_ ?_ ?_ hf
  · intro k; exact SpaceGroup.cell (n := n.relabel) ⟨k.z, k.x, k.y⟩
  · intro v hv; exact SpaceGroup.centring (n := n.relabel) (v := ⟨v.z, v.x, v.y⟩) (relabel_translations h hv)
  · intro hm; exact SpaceGroup.inversion (n := n.relabel) hm
  · intro s hs g hg
    have := SpaceGroup.generator (n := n.relabel) (s := s.relabel) (g := g.relabel) (List.mem_map_of_mem hs)
      (by rw [relabel_symbol, hg]; rfl)
    refine (congrArg (SpaceGroup n.relabel) (funext fun p => ?_)).mp this
    rw [M4.relabel_act]
    rfl

theorem relabel_three (n : HallSymbolNotation) : n.relabel.relabel.relabel = n := by
  obtain ⟨⟨m, c⟩, l, ⟨a, b, d⟩⟩ := n
  have hl : ∀ s : MatrixSymbol, s.relabel.relabel.relabel = s := by
    rintro ⟨sg, f, sub, d, a, l⟩
    have ha : a.relabel.relabel.relabel = a := by cases a <;> rfl
    have ht : ∀ t : TranslationSymbol, t.relabel.relabel.relabel = t := by intro t; cases t <;> rfl
    cases l with
    | none => simp only [MatrixSymbol.relabel, ha, Option.map_none]
    | some l =>
      simp only [MatrixSymbol.relabel, ha, Option.map_some, List.map_map]
      congr 2
      exact (List.map_congr_left fun t _ => ht t).trans (List.map_id l)
  have hc : c.relabel.relabel.relabel = c := by cases c <;> rfl
  simp only [HallSymbolNotation.relabel, hc, List.map_map]
  congr 1
  exact (List.map_congr_left fun s _ => hl s).trans (List.map_id l)

theorem relabel_ne_R {l : Lattices} (h : l ≠ .R) : l.relabel ≠ .R := by cases l <;> first | exact absurd rfl h | decide

/-- C87. Renaming the axes of a notation (a to b, b to c, c to a; any lattice but R) renames them in the group: the
group of the renamed notation consists of the operations of the group, seen in the renamed coordinates. -/
theorem relabel_group {n : HallSymbolNotation} (h : n.latticeSymbol.char ≠ .R) (f : Pt → Pt) :
    SpaceGroup n.relabel f ↔ SpaceGroup n (fun p => (f p.relabel).unlabel) := by
  constructor
  · intro hf
    have h1 := relabel_group_one (n := n.relabel) (relabel_ne_R h) hf
    have h2 := relabel_group_one (n := n.relabel.relabel) (relabel_ne_R (relabel_ne_R h)) h1
    rw [relabel_three] at h2
    exact h2
  · intro hf
    exact relabel_group_one h hf

/-- C87. It keeps consistency. -/
theorem relabel_consistent {n : HallSymbolNotation} (h : n.latticeSymbol.char ≠ .R) :
    Consistent n.relabel ↔ Consistent n := by
  have key : ∀ n : HallSymbolNotation, n.latticeSymbol.char ≠ .R → Consistent n → Consistent n.relabel := by
    intro n h hn f hf ⟨q, hq⟩
    obtain ⟨v, hv, k, hk⟩ := hn _ ((relabel_group h f).1 hf) ⟨q.unlabel, fun p => congrArg Pt.unlabel (hq p.relabel)⟩
    refine ⟨⟨v.z, v.x, v.y⟩, relabel_translations h hv, ⟨k.z, k.x, k.y⟩, fun p => ?_⟩
    have := congrArg Pt.relabel (hk p.unlabel)
    exact this
  constructor
  · intro hn
    have := key _ (relabel_ne_R (relabel_ne_R h)) (key _ (relabel_ne_R h) hn)
    rwa [relabel_three] at this
  · exact key n h

/-- A rotation part with the axes renamed. -/
def M3.relabel (r : M3) : M3 := ⟨r.m33, r.m31, r.m32, r.m13, r.m11, r.m12, r.m23, r.m21, r.m22⟩

theorem M3.relabel_three (r : M3) : r.relabel.relabel.relabel = r := rfl

theorem relabel_pointGroup_one {n : HallSymbolNotation} (h : n.latticeSymbol.char ≠ .R) {r : M3} (hr : r ∈ PointGroup n) :
    r.relabel ∈ PointGroup n.relabel := by
  obtain ⟨f, hf, m, rfl, rfl⟩ := hr
  exact ⟨_, relabel_group_one h hf, m.relabel, rfl, funext fun p => (m.relabel_act p).symm⟩

theorem relabel_pointGroup {n : HallSymbolNotation} (h : n.latticeSymbol.char ≠ .R) :
    PointGroup n.relabel = M3.relabel '' PointGroup n := by
  ext r
  constructor
  · intro hr
    have h1 := relabel_pointGroup_one (relabel_ne_R (relabel_ne_R h)) (relabel_pointGroup_one (relabel_ne_R h) hr)
    rw [relabel_three] at h1
    exact ⟨_, h1, M3.relabel_three r⟩
  · rintro ⟨r, hr, rfl⟩
    exact relabel_pointGroup_one h hr

/-- C87. Renamed positions: the two results have the same number of positions, and list an operation exactly when the
other lists it in renamed coordinates. -/
theorem relabel_positions {n : HallSymbolNotation} {g g' : GeneralPositions} (h : n.latticeSymbol.char ≠ .R)
    (hn : Consistent n) (hg : HasPositions n g) (hg' : HasPositions n.relabel g') :
    g'.numOfGeneralPos = g.numOfGeneralPos ∧ ∀ f, Listed g' f ↔ Listed g (fun p => (f p.relabel).unlabel) := by
  have hn' := (relabel_consistent h).2 hn
  refine ⟨?_, fun f => ?_⟩
  · rw [(positions_form_group hg hn).2.2.2, (positions_form_group hg' hn').2.2.2, relabel_pointGroup h]
    refine Set.ncard_image_of_injective _ fun a b e => ?_
    have := congrArg (fun r : M3 => r.relabel.relabel) e
    exact this
  · rw [← positions_complete hg hn, ← positions_complete hg' hn', relabel_group h]

theorem M3.Cubic.relabel {r : M3} (h : r.Cubic) : r.relabel.Cubic := by
  rw [cubic_iff_mem] at h ⊢
  revert r
  decide +kernel

theorem relabel_mulVec (r : M3) (v : V3) : r.relabel.mulVec ⟨v.z, v.x, v.y⟩ =
    ⟨(r.mulVec v).z, (r.mulVec v).x, (r.mulVec v).y⟩ := by
  ext <;> simp only [M3.relabel, M3.mulVec] <;> ring

theorem M3.Rhombohedral.relabel {r : M3} (h : r.Rhombohedral) : r.relabel.Rhombohedral := by
  refine ⟨h.1.relabel, ?_⟩
  rcases h.2 with e | e
  · left; have := relabel_mulVec r ⟨1, 1, 1⟩; rw [e] at this; exact this
  · right; have := relabel_mulVec r ⟨1, 1, 1⟩; rw [e] at this; exact this

/-- The first matrix symbol selects a cubic or rhombohedral cell, not a hexagonal one. -/
def NotHexagonal (n : HallSymbolNotation) : Prop :=
  ∀ s, n.matrixSymbols.head? = some s → s.nfoldBody ≠ .N6 ∧ (s.nfoldBody = .N3 → s.nfoldDiag = .Asterisk)

theorem fits_relabel {n : HallSymbolNotation} (h : NotHexagonal n) {r : M3} (hr : FitsFirstSymbol n r) :
    FitsFirstSymbol n.relabel r.relabel := by
  obtain ⟨l, ms, o⟩ := n
  match ms with
  | [] => exact hr
  | ⟨sg, f, sub, d, a, t⟩ :: ms =>
    obtain ⟨h1, h2⟩ := h _ rfl
    cases f <;> cases d <;> first
      | (exact absurd rfl h1)
      | (exact M3.Rhombohedral.relabel hr)
      | (exact M3.Cubic.relabel hr)
      | (exact absurd (h2 rfl) (fun e => NFoldDiag.noConfusion e))

theorem exists_relabel {n : HallSymbolNotation} (h : NotHexagonal n) (hp : ∃ g, HasPositions n g) :
    ∃ g, HasPositions n.relabel g := by
  obtain ⟨h1, h2, h3⟩ := (positions_exist_iff n).1 hp
  refine (positions_exist_iff _).2 ⟨?_, ?_, ?_⟩
  · simpa [HallSymbolNotation.relabel] using h1
  · intro s hs
    obtain ⟨s, hs', rfl⟩ := List.mem_map.1 hs
    obtain ⟨m, hm, hf⟩ := h2 s hs'
    exact ⟨m.relabel, by rw [relabel_symbol, hm]; rfl, fits_relabel h hf⟩
  · have e : bytesRequested n.relabel = bytesRequested n := by
      unfold bytesRequested
      have e1 : n.relabel.latticeSymbol.translations.length = n.latticeSymbol.translations.length := by
        simp only [HallSymbolNotation.relabel, LatticeSymbol.translations]
        cases n.latticeSymbol.char <;> rfl
      have e2 : (n.relabel.matrixSymbols.map fun s => s.nfoldBody.number) = n.matrixSymbols.map fun s => s.nfoldBody.number := by
        simp only [HallSymbolNotation.relabel, List.map_map]; rfl
      rw [e1, e2]; rfl
    rw [e]; exact h3

theorem notHexagonal_relabel {n : HallSymbolNotation} (h : NotHexagonal n) : NotHexagonal n.relabel := by
  intro s hs
  simp only [HallSymbolNotation.relabel, List.head?_map, Option.map_eq_some_iff] at hs
  obtain ⟨s, hs, rfl⟩ := hs
  exact h s hs

/-- C87. For a cubic or rhombohedral first symbol the renamed notation has positions exactly when the notation has. -/
theorem relabel_exists {n : HallSymbolNotation} (h : NotHexagonal n) :
    (∃ g, HasPositions n.relabel g) ↔ ∃ g, HasPositions n g := by
  constructor
  · intro hp
    have := exists_relabel (notHexagonal_relabel (notHexagonal_relabel h)) (exists_relabel (notHexagonal_relabel h) hp)
    rwa [relabel_three] at this
  · exact exists_relabel h

/-- `-C 2c 2` with its axes renamed is `-A 2xa 2y` (as a notation; the parser would read the last symbol as 2x, C21). -/
example : sampleN.relabel = ⟨⟨true, .A⟩, [⟨false, .N2, .None, .None, .X, some [.A]⟩, ⟨false, .N2, .None, .None, .Y, none⟩],
    ⟨0, 0, 0⟩⟩ ∧ sampleN.latticeSymbol.char ≠ .R ∧ Consistent sampleN ∧
    NotHexagonal sampleN ∧ HasPositions sampleN sampleG := by
  refine ⟨by decide +kernel, by decide +kernel, sample_consistent, ?_, sample_positions⟩
  intro s hs
  have e : sampleN.matrixSymbols.head? = some ⟨false, .N2, .None, .None, .Z, some [.C]⟩ := by decide +kernel
  rw [e] at hs
  obtain rfl := Option.some.inj hs
  decide

/-- For a hexagonal first symbol the listing order is only known about c: `P 6x` panics. -/
example : (hall "P 6").relabel = hall "P 6x" ∧ HasPositions (hall "P 6") (positionsOf "P 6") ∧
    (match (hall "P 6x").generalPositions 48 with
      | some (.error e) => decide (e = .orderMismatch)
      | _ => false) = true :=
  ⟨by decide +kernel, positionsOf_spec (by decide +kernel), by decide +kernel⟩

/-! ## C88 -/

theorem mirrorSub_twice (f : NFold) (s : NFoldSub) : mirrorSub f (mirrorSub f s) = s := by cases f <;> cases s <;> rfl

theorem mirror_twice (n : HallSymbolNotation) : n.mirror.mirror = n := by
  obtain ⟨l, ms, ⟨a, b, c⟩⟩ := n
  simp only [HallSymbolNotation.mirror, List.map_map, Int.neg_neg]
  congr 1
  refine (List.map_congr_left fun s _ => ?_).trans (List.map_id ms)
  simp only [Function.comp, mirrorSub_twice, id]

theorem sum_halves {l : List TranslationSymbol} (h : ∀ t ∈ l, t = .A ∨ t = .B ∨ t = .C ∨ t = .N) :
    (6 : Int) ∣ (sumTranslations l).x ∧ (6 : Int) ∣ (sumTranslations l).y ∧ (6 : Int) ∣ (sumTranslations l).z := by
  unfold sumTranslations
  have key : ∀ (l : List TranslationSymbol) (a : V3), (∀ t ∈ l, t = .A ∨ t = .B ∨ t = .C ∨ t = .N) →
      ((6 : Int) ∣ a.x ∧ (6 : Int) ∣ a.y ∧ (6 : Int) ∣ a.z) →
      ((6 : Int) ∣ (l.foldl (fun (acc : V3) (s : TranslationSymbol) => acc.add s.vector) a).x ∧
        (6 : Int) ∣ (l.foldl (fun (acc : V3) (s : TranslationSymbol) => acc.add s.vector) a).y ∧
        (6 : Int) ∣ (l.foldl (fun (acc : V3) (s : TranslationSymbol) => acc.add s.vector) a).z) := by
    intro l
    induction l with
    | nil => intro a _ h; exact h
    | cons t l ih =>
      intro a ht ha
      rw [List.foldl_cons]
      refine ih _ (fun t' h' => ht t' (List.mem_cons_of_mem _ h')) ?_
      obtain ⟨h1, h2, h3⟩ := ha
      rcases ht t (List.mem_cons_self ..) with rfl | rfl | rfl | rfl <;>
        simp only [V3.add, TranslationSymbol.vector] <;> omega
  exact key l V3.zero h ⟨by decide, by decide, by decide⟩

/-- The operation of the mirrored symbol has the same rotation part and, up to whole cells, the opposite translation. -/
theorem mirror_symbol {s : MatrixSymbol} {g : M4} (hl : ∀ l, s.translationSymbols = some l → ∀ t ∈ l, t = .A ∨ t = .B ∨ t = .C ∨ t = .N)
    (h : s.seitzMatrix = some g) :
    ∃ g', ({ s with nfoldSub := mirrorSub s.nfoldBody s.nfoldSub } : MatrixSymbol).seitzMatrix = some g' ∧
      g'.rot = g.rot ∧ V3.Cong g'.tr g.tr.neg := by
  obtain ⟨sg, f, sub, d, a, l⟩ := s
  have hred : ∀ v : Int, 6 ∣ v → (12 : Int) ∣ reduceTranslation v - v ∧ (6 : Int) ∣ reduceTranslation v := by
    intro v hv
    unfold reduceTranslation base
    have := tmod12_cases v
    split
    · simp only []
      split <;> omega
    · omega
  have hT : ∀ w : V3, ((6 : Int) ∣ w.x ∧ (6 : Int) ∣ w.y ∧ (6 : Int) ∣ w.z) →
      V3.Cong (w.map reduceTranslation) (w.map reduceTranslation).neg := by
    rintro ⟨x, y, z⟩ ⟨h1, h2, h3⟩
    have e1 := (hred x h1).2
    have e2 := (hred y h2).2
    have e3 := (hred z h3).2
    refine ⟨?_, ?_, ?_⟩ <;> simp only [V3.map, V3.neg] <;> omega
  have hlet : ∀ m m' : M4, m'.rot = m.rot → V3.Cong m'.tr m.tr.neg →
      (setTranslationFromSymbols ⟨sg, f, mirrorSub f sub, d, a, l⟩ m').rot = (setTranslationFromSymbols ⟨sg, f, sub, d, a, l⟩ m).rot ∧
      V3.Cong (setTranslationFromSymbols ⟨sg, f, mirrorSub f sub, d, a, l⟩ m').tr
        (setTranslationFromSymbols ⟨sg, f, sub, d, a, l⟩ m).tr.neg := by
    intro m m' h1 h2
    cases l with
    | none => exact ⟨h1, h2⟩
    | some l =>
      refine ⟨h1, ?_⟩
      have e := hT _ (sum_halves (hl l rfl))
      simp only [setTranslationFromSymbols]
      refine (h2.add e).trans ?_
      have : (m.tr.add ((sumTranslations l).map reduceTranslation)).neg =
        m.tr.neg.add ((sumTranslations l).map reduceTranslation).neg := by
        ext <;> simp only [V3.add, V3.neg] <;> ring
      rw [this]
      exact .refl _
  have htr : ∀ r c : M4, r.tr = V3.zero → setTransform ⟨sg, f, sub, d, a, l⟩ r = some c →
      ∃ c', setTransform ⟨sg, f, mirrorSub f sub, d, a, l⟩ r = some c' ∧ c'.rot = c.rot ∧ V3.Cong c'.tr c.tr.neg := by
    intro r c hz hc
    unfold setTransform at hc ⊢
    have z0 : V3.Cong V3.zero V3.zero.neg := ⟨⟨0, by decide⟩, ⟨0, by decide⟩, ⟨0, by decide⟩⟩
    cases f <;> cases sub <;> cases a <;> simp only [screwComponent, mirrorSub, axisColumn] at hc ⊢ <;> first
      | (cases hc; done)
      | (obtain rfl := Option.some.inj hc
         refine ⟨_, rfl, rfl, ?_⟩
         first
           | (rw [hz]; exact z0)
           | (refine ⟨?_, ?_, ?_⟩ <;> simp only [V3.neg] <;> decide))
  unfold MatrixSymbol.seitzMatrix at h ⊢
  simp only [] at h ⊢
  cases hr : rotationMatrix f d a with
  | none => rw [hr] at h; cases h
  | some r =>
    have hz : r.tr = V3.zero := by
      revert hr
      cases f <;> cases d <;> cases a <;> intro hr <;> first | (cases hr; done) | (cases hr; rfl)
    rw [hr] at h
    simp only [] at h ⊢
    cases hc : setTransform ⟨sg, f, sub, d, a, l⟩ r with
    | none => rw [hc] at h; cases h
    | some c =>
      rw [hc] at h
      simp only [] at h
      obtain ⟨c', k1, k2, k3⟩ := htr r c hz hc
      rw [k1]
      simp only []
      obtain ⟨q1, q2⟩ := hlet c c' k2 k3
      cases sg
      · simp only [Bool.false_eq_true, if_false, Option.some.injEq] at h ⊢
        subst h
        exact ⟨_, rfl, q1, q2⟩
      · simp only [if_true, Option.some.injEq] at h ⊢
        subst h
        exact ⟨_, rfl, by simp only [setInversion, q1], q2⟩

theorem HalvesOnly.mirror {n : HallSymbolNotation} (h : n.HalvesOnly) : n.mirror.HalvesOnly := by
  intro s hs
  obtain ⟨s, hs', rfl⟩ := List.mem_map.1 hs
  exact h s hs'

theorem mirror_group_one {n : HallSymbolNotation} (h : n.HalvesOnly) {f : Pt → Pt} (hf : SpaceGroup n f) :
    SpaceGroup n.mirror (conj Pt.opposite Pt.opposite f) := by
  have opp : Pt.opposite ∘ Pt.opposite = id := by
    funext p
    ext <;> simp [Pt.opposite]
  have cellneg : ∀ k : V3, conj Pt.opposite Pt.opposite (fun p => p.addCell k) = fun p => p.addCell k.neg := by
    intro k
    funext p
    ext <;> simp only [conj, Pt.opposite, Pt.addCell, V3.neg, Function.comp] <;> push_cast <;> ring
  refine SpaceGroup.transport opp opp ?_ ?_ ?_ ?_ hf
  · intro k; rw [cellneg]; exact SpaceGroup.cell _
  · intro v hv
    refine .inv (.centring (n := n.mirror) hv) ?_ ?_ <;> funext p <;>
      ext <;> simp only [conj, Pt.opposite, Pt.addTwelfths, Function.comp, id] <;> ring
  · intro hm
    refine (congrArg (SpaceGroup n.mirror) (funext fun p => ?_)).mp (SpaceGroup.inversion (n := n.mirror) hm)
    ext <;> simp [conj, Pt.opposite]
  · intro s hs g hg
    obtain ⟨g', k1, k2, ⟨⟨a, ha⟩, ⟨b, hb⟩, ⟨c, hc⟩⟩⟩ := mirror_symbol (h s hs) hg
    have := SpaceGroup.generator (n := n.mirror) (List.mem_map_of_mem hs) k1
    refine (congrArg (SpaceGroup n.mirror) (funext fun p => ?_)).mp ((SpaceGroup.cell (n := n.mirror) ⟨-a, -b, -c⟩).comp this)
    have ha' : (g'.tr.x : ℚ) = -g.tr.x + 12 * a := by
      have : g'.tr.x = -g.tr.x + 12 * a := by simp only [V3.neg] at ha; omega
      rw [this]; push_cast; ring
    have hb' : (g'.tr.y : ℚ) = -g.tr.y + 12 * b := by
      have : g'.tr.y = -g.tr.y + 12 * b := by simp only [V3.neg] at hb; omega
      rw [this]; push_cast; ring
    have hc' : (g'.tr.z : ℚ) = -g.tr.z + 12 * c := by
      have : g'.tr.z = -g.tr.z + 12 * c := by simp only [V3.neg] at hc; omega
      rw [this]; push_cast; ring
    ext <;> simp only [conj, Function.comp, Pt.opposite, Pt.addCell, Pt.addTwelfths, Pt.subTwelfths, M4.act, k2, ha', hb', hc',
      HallSymbolNotation.mirror, OriginShift.vec] <;> push_cast <;> ring

/-- C88. The notation of opposite hand (3_1 for 3_2, 4_1 for 4_3, 6_1 for 6_5, 6_2 for 6_4 and back, opposite origin shift;
translation letters a, b, c, n only) denotes the mirror image of the group: the same operations seen through the
inversion at the origin. -/
theorem mirror_group {n : HallSymbolNotation} (h : n.HalvesOnly) (f : Pt → Pt) :
    SpaceGroup n.mirror f ↔ SpaceGroup n (fun p => (f p.opposite).opposite) := by
  constructor
  · intro hf
    have := mirror_group_one (HalvesOnly.mirror h) hf
    rw [mirror_twice] at this
    exact this
  · intro hf
    have := mirror_group_one h hf
    refine (congrArg (SpaceGroup n.mirror) (funext fun p => ?_)).mp this
    ext <;> simp [conj, Pt.opposite]

/-- C88. The mirror image is consistent exactly when the notation is. -/
theorem mirror_consistent {n : HallSymbolNotation} (h : n.HalvesOnly) : Consistent n.mirror ↔ Consistent n := by
  have key : ∀ n : HallSymbolNotation, n.HalvesOnly → Consistent n → Consistent n.mirror := by
    intro n h hn f hf ⟨q, hq⟩
    have hl := hn _ ((mirror_group h f).1 hf) ⟨q.opposite, fun p => by
      simp only [hq]
      ext <;> simp only [Pt.opposite] <;> ring⟩
    obtain ⟨v, hv, k, hk⟩ := hl
    obtain ⟨w, hw, ⟨a, ha⟩, ⟨b, hb⟩, ⟨c, hc⟩⟩ := n.latticeSymbol.char.neg_closed v hv
    refine ⟨w, hw, ⟨a - k.x, b - k.y, c - k.z⟩, fun p => ?_⟩
    have e1 := hk p.opposite
    have e2 : p.opposite.opposite = p := by ext <;> simp [Pt.opposite]
    simp only [e2] at e1
    have e3 : f p = ((p.opposite.addTwelfths v).addCell k).opposite := by
      rw [← e1]
      ext <;> simp [Pt.opposite]
    rw [e3]
    have ha' : (v.x : ℚ) = -w.x - 12 * a := by
      have : v.x = -w.x - 12 * a := by simp only [V3.neg] at ha; omega
      rw [this]; push_cast; ring
    have hb' : (v.y : ℚ) = -w.y - 12 * b := by
      have : v.y = -w.y - 12 * b := by simp only [V3.neg] at hb; omega
      rw [this]; push_cast; ring
    have hc' : (v.z : ℚ) = -w.z - 12 * c := by
      have : v.z = -w.z - 12 * c := by simp only [V3.neg] at hc; omega
      rw [this]; push_cast; ring
    ext <;> simp only [Pt.opposite, Pt.addTwelfths, Pt.addCell, ha', hb', hc'] <;> push_cast <;> ring
  constructor
  · intro hn
    have := key _ (HalvesOnly.mirror h) hn
    rwa [mirror_twice] at this
  · exact key n h

theorem mirror_pointGroup {n : HallSymbolNotation} (h : n.HalvesOnly) : PointGroup n.mirror = PointGroup n := by
  have key : ∀ n : HallSymbolNotation, n.HalvesOnly → PointGroup n ⊆ PointGroup n.mirror := by
    rintro n h r ⟨f, hf, m, rfl, rfl⟩
    refine ⟨_, mirror_group_one h hf, ⟨m.rot, m.tr.neg, m.bot, m.w⟩, rfl, funext fun p => ?_⟩
    ext <;> simp only [conj, Function.comp, Pt.opposite, M4.act, V3.neg] <;> push_cast <;> ring
  refine Set.Subset.antisymm ?_ (key n h)
  have := key _ (HalvesOnly.mirror h)
  rwa [mirror_twice] at this

/-- Two consistent notations with the same listing order and the same point group list the same rotations in the same
order. -/
theorem same_rotations {n n' : HallSymbolNotation} {g g' : GeneralPositions} (ho : n.matriceOrder = n'.matriceOrder)
    (hpg : PointGroup n = PointGroup n')
    (hn : Consistent n) (hn' : Consistent n') (hg : HasPositions n g) (hg' : HasPositions n' g') :
    g.corePositionSet.map M4.rot = g'.corePositionSet.map M4.rot := by
  obtain ⟨o, ho1, hs1⟩ := core_rots_sorted hn hg
  obtain ⟨o', ho1', hs1'⟩ := core_rots_sorted hn' hg'
  rw [ho, ho1'] at ho1
  obtain rfl := Except.ok.inj ho1
  have hirr : Std.Irrefl (KeyLt o') := ⟨by
    rintro a ⟨i, j, h1, h2, h3⟩
    rw [h1] at h2; cases h2; omega⟩
  have hanti : Std.Antisymm (KeyLt o') := ⟨by
    rintro a b ⟨i, j, h1, h2, h3⟩ ⟨i', j', h1', h2', h3'⟩
    rw [h1] at h2'; rw [h2] at h1'; cases h2'; cases h1'; omega⟩
  refine List.Pairwise.eq_of_mem_iff hs1 hs1' fun r => ?_
  have e1 := rotations_are_point_group hg
  have e2 := rotations_are_point_group hg'
  have : r ∈ PointGroup n ↔ r ∈ PointGroup n' := by rw [hpg]
  rw [e1, e2] at this
  simpa using this

theorem mirror_order (n : HallSymbolNotation) : n.mirror.matriceOrder = n.matriceOrder := by
  unfold HallSymbolNotation.matriceOrder HallSymbolNotation.mirror
  cases n.matrixSymbols with
  | nil => rfl
  | cons => rfl

theorem exists_mirror {n : HallSymbolNotation} (h : n.HalvesOnly) (hp : ∃ g, HasPositions n g) :
    ∃ g, HasPositions n.mirror g := by
  obtain ⟨h1, h2, h3⟩ := (positions_exist_iff n).1 hp
  refine (positions_exist_iff _).2 ⟨?_, ?_, ?_⟩
  · simpa [HallSymbolNotation.mirror] using h1
  · intro s hs
    obtain ⟨s, hs', rfl⟩ := List.mem_map.1 hs
    obtain ⟨m, hm, hf⟩ := h2 s hs'
    obtain ⟨m', k1, k2, -⟩ := mirror_symbol (h s hs') hm
    refine ⟨m', k1, ?_⟩
    rw [k2]
    revert hf
    unfold FitsFirstSymbol HallSymbolNotation.mirror
    cases n.matrixSymbols with
    | nil => exact id
    | cons => exact id
  · have e : bytesRequested n.mirror = bytesRequested n := by
      unfold bytesRequested
      have e2 : (n.mirror.matrixSymbols.map fun s => s.nfoldBody.number) = n.matrixSymbols.map fun s => s.nfoldBody.number := by
        simp only [HallSymbolNotation.mirror, List.map_map]; rfl
      rw [e2]; rfl
    rw [e]; exact h3

/-- C88. The mirror image has positions exactly when the notation has; the same rotations are listed in the same order,
and an operation is listed exactly when its mirror image is listed for the other. -/
theorem mirror_positions {n : HallSymbolNotation} (h : n.HalvesOnly) :
    ((∃ g, HasPositions n.mirror g) ↔ ∃ g, HasPositions n g) ∧
    ∀ g g', HasPositions n g → HasPositions n.mirror g' → Consistent n →
      g'.corePositionSet.map M4.rot = g.corePositionSet.map M4.rot ∧
      ∀ f, Listed g' f ↔ Listed g (fun p => (f p.opposite).opposite) := by
  refine ⟨⟨fun hp => ?_, exists_mirror h⟩, fun g g' hg hg' hn => ⟨?_, fun f => ?_⟩⟩
  · have := exists_mirror (HalvesOnly.mirror h) hp
    rwa [mirror_twice] at this
  · exact same_rotations (mirror_order n) (mirror_pointGroup h) ((mirror_consistent h).2 hn) hn hg' hg
  · rw [← positions_complete hg hn, ← positions_complete hg' ((mirror_consistent h).2 hn), mirror_group h]

/-- `P 41 2` and `P 43 2` are mirror images; the hypotheses hold, and the listed translations differ. -/
example : (hall "P 41 2").mirror = hall "P 43 2" ∧ (hall "P 41 2").HalvesOnly ∧ Consistent (hall "P 41 2") ∧
    HasPositions (hall "P 41 2") (positionsOf "P 41 2") ∧ HasPositions (hall "P 43 2") (positionsOf "P 43 2") ∧
    (positionsOf "P 41 2").corePositionSet ≠ (positionsOf "P 43 2").corePositionSet := by
  refine ⟨by decide +kernel, ?_, consistent_by_check (by decide +kernel), positionsOf_spec (by decide +kernel),
    positionsOf_spec (by decide +kernel), by decide +kernel⟩
  have e : (hall "P 41 2").matrixSymbols.all (fun s => decide (s.translationSymbols = none)) = true := by decide +kernel
  intro s hs l hl
  have := List.all_eq_true.1 e s hs
  rw [decide_eq_true_eq] at this
  rw [this] at hl; cases hl

/-- A quarter translation is not its own mirror image: `P 2u` and its (unchanged) `mirror`. -/
example : (hall "P 2u").mirror = hall "P 2u" ∧ ¬ (hall "P 2u").HalvesOnly := by
  refine ⟨by decide +kernel, fun h => ?_⟩
  have e : (hall "P 2u").matrixSymbols = [⟨false, .N2, .None, .None, .Z, some [.U]⟩] := by decide +kernel
  have := h ⟨false, .N2, .None, .None, .Z, some [.U]⟩ (by rw [e]; exact List.mem_singleton.2 rfl) [.U] rfl .U
    (List.mem_singleton.2 rfl)
  revert this
  decide

end Verif
