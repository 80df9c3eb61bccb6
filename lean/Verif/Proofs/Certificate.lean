import Verif.Proofs.Final

/-! # A certificate of consistency

A list of operations, one per rotation, closed under right multiplication by the generators, whose rotations preserve
the lattice, shows that a symbol is consistent and that the list is its point group. -/

namespace Verif

instance (l : LatticeSymbol) (a b : V3) : Decidable (LatCong l a b) := by
  unfold LatCong; infer_instance

/-- The generating operations other than translations. -/
def HallSymbolNotation.gens (n : HallSymbolNotation) (ms : List M4) : List M4 :=
  (if n.latticeSymbol.minusSign then [M4.inversion] else []) ++
    ms.map fun g => ⟨g.rot, (g.tr.sub (g.rot.mulVec n.originShift.vec)).add n.originShift.vec, V3.zero, 1⟩

/-- The certificate. -/
structure Certificate (n : HallSymbolNotation) (ms : List M4) (L : List M4) : Prop where
  rots : (L.map M4.rot).Nodup
  unimod : ∀ m ∈ L, m.rot.Unimod
  identity : ∃ m ∈ L, m.rot = M3.one ∧ LatCong n.latticeSymbol m.tr V3.zero
  closed : ∀ m ∈ L, ∀ g ∈ n.gens ms, ∃ c ∈ L, c.rot = m.rot.mul g.rot ∧
    LatCong n.latticeSymbol ((m.rot.mulVec g.tr).add m.tr) c.tr
  lattice : ∀ m ∈ L, ∀ v ∈ n.latticeSymbol.translations, LatCong n.latticeSymbol (m.rot.mulVec v) V3.zero

theorem IsLatticeTranslation.comp {l : LatticeSymbol} {f g : Pt → Pt} (hf : IsLatticeTranslation l f)
    (hg : IsLatticeTranslation l g) : IsLatticeTranslation l (f ∘ g) := by
  obtain ⟨v, rfl, hv⟩ := hf.exists_vec
  obtain ⟨w, rfl, hw⟩ := hg.exists_vec
  rw [trMat_comp]
  change IsLatticeTranslation l (trMat (w.add v)).act
  rw [isLatticeTranslation_iff]
  obtain ⟨a, ha, h1⟩ := hv
  obtain ⟨b, hb, h2⟩ := hw
  obtain ⟨c, hc, h3⟩ := l.char.add_closed b hb a ha
  refine ⟨c, hc, ?_⟩
  rw [V3.zero_add] at *
  exact (h2.add h1).trans h3

theorem LatCong.neg {l : LatticeSymbol} {v : V3} (h : LatCong l v V3.zero) : LatCong l v.neg V3.zero := by
  obtain ⟨a, ha, h1⟩ := h
  obtain ⟨c, hc, h3⟩ := l.char.neg_closed a ha
  refine ⟨c, hc, ?_⟩
  rw [V3.zero_add] at *
  exact h1.neg.trans h3

theorem LatCong.add {l : LatticeSymbol} {v w v' w' : V3} (h : LatCong l v v') (h' : LatCong l w w') :
    LatCong l (v.add w) (v'.add w') := by
  obtain ⟨a, ha, h1⟩ := h
  obtain ⟨b, hb, h2⟩ := h'
  obtain ⟨c, hc, h3⟩ := l.char.add_closed a ha b hb
  refine ⟨c, hc, (h1.add h2).trans ?_⟩
  have e : (v'.add a).add (w'.add b) = (v'.add w').add (a.add b) := by ext <;> simp <;> ring
  rw [e]
  exact (V3.Cong.refl _).add h3

/-- The matrices that are listed modulo the lattice. -/
def Reach (n : HallSymbolNotation) (L : List M4) (r : M3) (t : V3) : Prop :=
  ∃ m ∈ L, m.rot = r ∧ LatCong n.latticeSymbol t m.tr

theorem Certificate.lattice_stable {n : HallSymbolNotation} {ms L : List M4} (h : Certificate n ms L) {m : M4}
    (hm : m ∈ L) {v : V3} (hv : LatCong n.latticeSymbol v V3.zero) : LatCong n.latticeSymbol (m.rot.mulVec v) V3.zero := by
  obtain ⟨w, hw, hc⟩ := hv
  rw [V3.zero_add] at hc
  exact (LatCong.of_cong _ (m.rot.mulVec_cong hc)).trans (h.lattice m hm w hw)

/-- Right multiplication by a group element keeps matrices listed. -/
theorem Certificate.reach {n : HallSymbolNotation} {ms L : List M4} (hms : n.seitzMatrices = some ms)
    (h : Certificate n ms L) {f : Pt → Pt} (hf : SpaceGroup n f) :
    ∀ g : M4, f = g.act → ∀ r t, Reach n L r t → Reach n L (r.mul g.rot) ((r.mulVec g.tr).add t) := by
  have htr : ∀ v, LatCong n.latticeSymbol v V3.zero → ∀ r t, Reach n L r t → Reach n L r ((r.mulVec v).add t) := by
    rintro v hv r t ⟨m, hm, rfl, ht⟩
    refine ⟨m, hm, rfl, ?_⟩
    have := (h.lattice_stable hm hv).add ht
    rwa [V3.zero_add] at this
  have hgen : ∀ g ∈ n.gens ms, ∀ r t, Reach n L r t → Reach n L (r.mul g.rot) ((r.mulVec g.tr).add t) := by
    rintro g hg r t ⟨m, hm, rfl, ht⟩
    obtain ⟨c, hc, h1, h2⟩ := h.closed m hm g hg
    refine ⟨c, hc, h1, ?_⟩
    exact ((LatCong.refl _ _).add ht).trans h2
  have hone : ∀ v, LatCong n.latticeSymbol v V3.zero → ∀ g : M4, (trMat v).act = g.act →
      ∀ r t, Reach n L r t → Reach n L (r.mul g.rot) ((r.mulVec g.tr).add t) := by
    intro v hv g e r t hr
    obtain ⟨e1, e2⟩ := M4.act_inj e
    rw [← e1, ← e2]
    simp only [trMat, M3.mul_one]
    exact htr v hv r t hr
  induction hf with
  | one =>
    intro g e
    exact hone V3.zero (.refl _ _) g (by rw [← e, trMat, M4.act_mk_one _ _ _ rfl])
  | cell k =>
    intro g e
    refine hone (V3.smul 12 k) (.of_cong _ ?_) g (by rw [← e, cell_act])
    refine ⟨?_, ?_, ?_⟩ <;> simp
  | @centring v hv =>
    intro g e
    refine hone v ⟨v, hv, by rw [V3.zero_add]; exact .refl _⟩ g (by rw [← e, trMat_act])
  | inversion hm =>
    intro g e
    rw [inversion_act] at e
    obtain ⟨e1, e2⟩ := M4.act_inj e
    rw [← e1, ← e2]
    exact hgen M4.inversion (by unfold HallSymbolNotation.gens; rw [if_pos hm]; simp)
  | @generator s g' hs hg =>
    intro g e
    rw [shifted_act] at e
    obtain ⟨e1, e2⟩ := M4.act_inj e
    rw [← e1, ← e2]
    obtain ⟨g'', hg'', hsg⟩ := (seitzMatrices_mem hms).2 s hs
    rw [hg] at hsg
    obtain rfl := Option.some.inj hsg
    exact hgen _ (List.mem_append_right _ (List.mem_map.2 ⟨g', hg'', rfl⟩))
  | comp h1 h2 ih1 ih2 =>
    intro g e r t hr
    obtain ⟨a, rfl, _, _⟩ := h1.isOp
    obtain ⟨b, rfl, _, _⟩ := h2.isOp
    rw [M4.act_comp] at e
    obtain ⟨e1, e2⟩ := M4.act_inj e
    rw [← e1, ← e2]
    have := ih2 b rfl _ _ (ih1 a rfl r t hr)
    simp only [M3.mulVec_add, M3.mulVec_mulVec, ← M3.mul_assoc, V3.add_assoc] at this ⊢
    exact this
  | @inv f f' h0 h1 h2 ih =>
    intro g e r t hr
    obtain ⟨a, rfl, _, hu⟩ := h0.isOp
    subst e
    have e1 : (trMat V3.zero).act = id := M4.act_mk_one _ _ _ rfl
    rw [M4.act_comp] at h1 h2
    obtain ⟨h3, h4⟩ := M4.act_inj (h1.trans e1.symm)
    obtain ⟨h5, h6⟩ := M4.act_inj (h2.trans e1.symm)
    simp only [trMat] at h3 h4 h5 h6
    -- right multiplication by `a.rot` permutes the listed rotations
    have hinj : Set.InjOn (fun x => M3.mul x a.rot) (rotSet L) := fun x _ y _ e => M3.mul_right_cancel hu e
    have hmaps : Set.MapsTo (fun x => M3.mul x a.rot) (rotSet L) (rotSet L) := by
      rintro _ ⟨m, hm, rfl⟩
      obtain ⟨c, hc, hcr, _⟩ := ih a rfl m.rot m.tr ⟨m, hm, rfl, .refl _ _⟩
      exact ⟨c, hc, hcr⟩
    obtain ⟨m, hm, rfl, ht⟩ := hr
    obtain ⟨_, ⟨d, hd, rfl⟩, hdr⟩ := (((rotSet_finite L).injOn_iff_bijOn_of_mapsTo hmaps).1 hinj).surjOn ⟨m, hm, rfl⟩
    simp only [] at hdr
    obtain ⟨c, hc, hcr, hct⟩ := ih a rfl d.rot d.tr ⟨d, hd, rfl, .refl _ _⟩
    have hcm : c = m := by
      have := h.rots
      exact List.inj_on_of_nodup_map this hc hm (hcr.trans hdr)
    subst hcm
    refine ⟨d, hd, ?_, ?_⟩
    · rw [← hdr, M3.mul_assoc, h3, M3.mul_one]
    · -- t ≡ m.tr ≡ d.rot a.tr + d.tr
      have h7 := ht.trans hct.symm
      have h8 := (LatCong.refl n.latticeSymbol (c.rot.mulVec g.tr)).add h7
      refine h8.trans ?_
      rw [← hdr]
      have e2 : ((d.rot.mul a.rot).mulVec g.tr).add ((d.rot.mulVec a.tr).add d.tr)
          = (d.rot.mulVec ((a.rot.mulVec g.tr).add a.tr)).add d.tr := by
        rw [M3.mulVec_add, M3.mulVec_mulVec, V3.add_assoc]
      rw [e2, h4, M3.mulVec_zero, V3.zero_add]
      exact .refl _ _

theorem Certificate.listed {n : HallSymbolNotation} {ms L : List M4} (hms : n.seitzMatrices = some ms)
    (h : Certificate n ms L) {g : M4} (hg : SpaceGroup n g.act) : Reach n L g.rot g.tr := by
  obtain ⟨m, hm, h1, h2⟩ := h.identity
  have := h.reach hms hg g rfl M3.one V3.zero ⟨m, hm, h1, h2.symm⟩
  rwa [M3.one_mul, M3.one_mulVec, V3.add_zero] at this

theorem Certificate.consistent {n : HallSymbolNotation} {ms L : List M4} (hms : n.seitzMatrices = some ms)
    (h : Certificate n ms L) : Consistent n := by
  intro f hf ⟨q, hq⟩
  obtain ⟨g, rfl, _, _⟩ := hf.isOp
  have hrot : g.rot = M3.one := by
    have h0 := hq ⟨0, 0, 0⟩
    have hx := hq ⟨1, 0, 0⟩
    have hy := hq ⟨0, 1, 0⟩
    have hz := hq ⟨0, 0, 1⟩
    simp only [M4.act, Pt.mk.injEq, mul_zero, add_zero, zero_add, mul_one] at h0 hx hy hz
    obtain ⟨a1, a2, a3⟩ := h0
    obtain ⟨b1, b2, b3⟩ := hx
    obtain ⟨c1, c2, c3⟩ := hy
    obtain ⟨d1, d2, d3⟩ := hz
    ext <;> apply Int.cast_injective (α := ℚ) <;> simp only [M3.one, Int.cast_one, Int.cast_zero] <;> linarith
  have hact : g.act = (trMat g.tr).act := by
    funext p; exact M4.act_congr_rot_tr (a := g) (b := trMat g.tr) hrot rfl p
  rw [hact, isLatticeTranslation_iff]
  obtain ⟨m, hm, h1, h2⟩ := h.listed hms hf
  obtain ⟨m', hm', h1', h2'⟩ := h.identity
  have : m = m' := List.inj_on_of_nodup_map h.rots hm hm' (h1.trans (hrot.trans h1'.symm))
  subst this
  exact h2.trans h2'

theorem Certificate.pointGroup_subset {n : HallSymbolNotation} {ms L : List M4} (hms : n.seitzMatrices = some ms)
    (h : Certificate n ms L) : PointGroup n ⊆ rotSet L := by
  rintro r ⟨f, hf, m, rfl, rfl⟩
  obtain ⟨c, hc, h1, _⟩ := h.listed hms hf
  exact ⟨c, hc, h1⟩

/-! ## Computing and checking certificates -/

/-- Equality of integers, in a form the kernel evaluates quickly. -/
def intEqB : Int → Int → Bool
  | .ofNat a, .ofNat b => Nat.beq a b
  | .negSucc a, .negSucc b => Nat.beq a b
  | _, _ => false

theorem intEqB_iff {a b : Int} : intEqB a b = true ↔ a = b := by
  cases a <;> cases b <;> simp [intEqB]

/-- Equality of matrices, in a form the kernel evaluates quickly. -/
def M3.eqB (a b : M3) : Bool :=
  intEqB a.m11 b.m11 && (intEqB a.m12 b.m12 && (intEqB a.m13 b.m13 && (intEqB a.m21 b.m21 && (intEqB a.m22 b.m22 &&
    (intEqB a.m23 b.m23 && (intEqB a.m31 b.m31 && (intEqB a.m32 b.m32 && intEqB a.m33 b.m33)))))))

theorem M3.eqB_iff {a b : M3} : a.eqB b = true ↔ a = b := by
  obtain ⟨_, _, _, _, _, _, _, _, _⟩ := a
  obtain ⟨_, _, _, _, _, _, _, _, _⟩ := b
  simp [M3.eqB, intEqB_iff]

/-- The rotation `r` is not in the list yet. -/
def newRot : List M4 → M3 → Bool
  | [], _ => true
  | m :: L, r => bif m.rot.eqB r then false else newRot L r

theorem newRot_iff {L : List M4} {r : M3} : newRot L r = true ↔ ∀ m ∈ L, m.rot ≠ r := by
  induction L with
  | nil => simp [newRot]
  | cons m L ih =>
    unfold newRot
    cases h : m.rot.eqB r with
    | true => simp [M3.eqB_iff.1 h]
    | false =>
      have hne : m.rot ≠ r := fun e => by rw [M3.eqB_iff.2 e] at h; cases h
      simp [ih, hne]

/-- The first element of the list with rotation `r`. -/
def findRot : List M4 → M3 → Option M4
  | [], _ => none
  | m :: L, r => bif m.rot.eqB r then some m else findRot L r

theorem findRot_some {L : List M4} {r : M3} {m : M4} (h : findRot L r = some m) : m ∈ L ∧ m.rot = r := by
  induction L with
  | nil => cases h
  | cons a L ih =>
    unfold findRot at h
    cases e : a.rot.eqB r with
    | true =>
      rw [e] at h
      cases h
      exact ⟨List.mem_cons_self .., M3.eqB_iff.1 e⟩
    | false =>
      rw [e] at h
      exact ⟨List.mem_cons_of_mem _ (ih h).1, (ih h).2⟩

theorem findRot_of_mem {L : List M4} {m : M4} (hn : (L.map M4.rot).Nodup) (h : m ∈ L) : findRot L m.rot = some m := by
  induction L with
  | nil => cases h
  | cons a L ih =>
    rw [List.map_cons, List.nodup_cons] at hn
    unfold findRot
    rcases List.mem_cons.1 h with rfl | h
    · rw [M3.eqB_iff.2 rfl]; rfl
    · have hne : a.rot ≠ m.rot := fun e => hn.1 (e ▸ List.mem_map_of_mem h)
      cases e : a.rot.eqB m.rot with
      | true => exact absurd (M3.eqB_iff.1 e) hne
      | false => exact ih hn.2 h

theorem findRot_none {L : List M4} {r : M3} (h : findRot L r = none) : ∀ m ∈ L, m.rot ≠ r := by
  induction L with
  | nil => simp
  | cons a L ih =>
    unfold findRot at h
    cases e : a.rot.eqB r with
    | true => rw [e] at h; cases h
    | false =>
      rw [e] at h
      intro m hm
      rcases List.mem_cons.1 hm with rfl | hm
      · intro e'; rw [M3.eqB_iff.2 e'] at e; cases e
      · exact ih h m hm

/-- The product, with the translation reduced. -/
def M4.nmul (m g : M4) : M4 := ⟨m.rot.mul g.rot, ((m.rot.mulVec g.tr).add m.tr).map positiveMod, V3.zero, 1⟩

/-- The products of the elements of a list with `r`. -/
def coset (H : List M4) (r : M4) : List M4 := H.map fun m => m.nmul r

/-- One step: the products of the representative `r` with the generators that are not in the list are new representatives. -/
def extend (gs H : List M4) (r : M4) (q : List M4 × List M4) : List M4 × List M4 :=
  gs.foldl (fun q g => let c := r.nmul g; bif newRot q.2 c.rot then (q.1 ++ [c], q.2 ++ coset H c) else q) q

/-- All cosets of `H`: process the `k`-th representative, `fuel` times. -/
def cosets (gs H : List M4) : Nat → Nat → List M4 × List M4 → List M4
  | 0, _, q => q.2
  | fuel + 1, k, q =>
    match q.1[k]? with
    | none => q.2
    | some r => cosets gs H fuel (k + 1) (extend gs H r q)

/-- The products of the generators, adding one generator after the other (Dimino's algorithm). -/
def dimino : List M4 → List M4 → List M4 → List M4
  | [], _, L => L
  | g :: rest, gs, L =>
    bif newRot L g.rot then dimino rest (gs ++ [g]) (cosets (gs ++ [g]) L 48 0 ([g], L ++ coset L g)) else dimino rest gs L

/-- Boolean congruence modulo the lattice. -/
def latCongB (l : LatticeSymbol) (a b : V3) : Bool :=
  l.translations.any fun t =>
    ((a.x - b.x - t.x) % 12 == 0) && ((a.y - b.y - t.y) % 12 == 0) && ((a.z - b.z - t.z) % 12 == 0)

theorem latCongB_iff {l : LatticeSymbol} {a b : V3} (h : latCongB l a b = true) : LatCong l a b := by
  unfold latCongB at h
  obtain ⟨t, ht, hh⟩ := List.any_eq_true.1 h
  simp only [Bool.and_eq_true, beq_iff_eq] at hh
  refine ⟨t, ht, ?_⟩
  refine ⟨?_, ?_, ?_⟩ <;> simp only [V3.add_x, V3.add_y, V3.add_z] <;> omega

/-- All rotations different. -/
def nodupRots : List M4 → Bool
  | [] => true
  | m :: L => newRot L m.rot && nodupRots L

theorem nodupRots_iff {L : List M4} (h : nodupRots L = true) : (L.map M4.rot).Nodup := by
  induction L with
  | nil => exact List.nodup_nil
  | cons m L ih =>
    simp only [nodupRots, Bool.and_eq_true, newRot_iff] at h
    rw [List.map_cons, List.nodup_cons]
    refine ⟨?_, ih h.2⟩
    intro hm
    obtain ⟨a, ha, e⟩ := List.mem_map.1 hm
    exact h.1 a ha e

/-- The boolean checker. -/
def checkCert (n : HallSymbolNotation) (ms L : List M4) : Bool :=
  nodupRots L &&
  L.all (fun m => intEqB m.rot.det 1 || intEqB m.rot.det (-1)) &&
  (match findRot L M3.one with
   | some m => latCongB n.latticeSymbol m.tr V3.zero
   | none => false) &&
  L.all (fun m => (n.gens ms).all fun g =>
    match findRot L (m.rot.mul g.rot) with
    | some c => latCongB n.latticeSymbol ((m.rot.mulVec g.tr).add m.tr) c.tr
    | none => false) &&
  L.all (fun m => n.latticeSymbol.translations.all fun v =>
    (intEqB v.x 0 && (intEqB v.y 0 && intEqB v.z 0)) || latCongB n.latticeSymbol (m.rot.mulVec v) V3.zero)

theorem checkCert_sound {n : HallSymbolNotation} {ms L : List M4} (h : checkCert n ms L = true) :
    Certificate n ms L := by
  simp only [checkCert, Bool.and_eq_true, List.all_eq_true, Bool.or_eq_true, intEqB_iff] at h
  obtain ⟨⟨⟨⟨h1, h2⟩, h3⟩, h4⟩, h5⟩ := h
  refine ⟨nodupRots_iff h1, h2, ?_, ?_, ?_⟩
  · cases hf : findRot L M3.one with
    | none => rw [hf] at h3; cases h3
    | some m =>
      rw [hf] at h3
      exact ⟨m, (findRot_some hf).1, (findRot_some hf).2, latCongB_iff h3⟩
  · intro m hm g hg
    have h := h4 m hm g hg
    cases hf : findRot L (m.rot.mul g.rot) with
    | none => rw [hf] at h; cases h
    | some c =>
      rw [hf] at h
      exact ⟨c, (findRot_some hf).1, (findRot_some hf).2, latCongB_iff h⟩
  · intro m hm v hv
    rcases h5 m hm v hv with ⟨hx, hy, hz⟩ | h
    · obtain rfl : v = V3.zero := by ext <;> assumption
      rw [M3.mulVec_zero]
      exact .refl _ _
    · exact latCongB_iff h

/-- The list used as certificate. -/
def certList (n : HallSymbolNotation) (ms : List M4) : List M4 :=
  dimino (n.gens ms) [] [M4.identity]

/-! ## Every listed operation is in the group -/

theorem gens_inGroup {n : HallSymbolNotation} {ms : List M4} (hms : n.seitzMatrices = some ms) :
    ∀ g ∈ n.gens ms, g.Affine ∧ InGroup n g := by
  intro g hg
  unfold HallSymbolNotation.gens at hg
  rcases List.mem_append.1 hg with hg | hg
  · split at hg
    · rename_i hm
      obtain rfl := List.mem_singleton.1 hg
      exact ⟨⟨rfl, rfl⟩, by unfold InGroup; rw [← inversion_act]; exact .inversion hm⟩
    · simp at hg
  · obtain ⟨g', hg', rfl⟩ := List.mem_map.1 hg
    obtain ⟨s, hs, hsg⟩ := (seitzMatrices_mem hms).1 g' hg'
    have := SpaceGroup.generator (n := n) hs hsg
    rw [shifted_act] at this
    exact ⟨⟨rfl, rfl⟩, this⟩

theorem nmul_inGroup {n : HallSymbolNotation} {a b : M4} (ha : InGroup n a) (hb : InGroup n b) :
    (a.nmul b).Affine ∧ InGroup n (a.nmul b) := by
  refine ⟨⟨rfl, rfl⟩, ?_⟩
  have h : InGroup n ⟨a.rot.mul b.rot, (a.rot.mulVec b.tr).add a.tr, V3.zero, 1⟩ := by
    unfold InGroup at *
    rw [← M4.act_comp]
    exact .comp ha hb
  exact inGroup_latStable n _ (((a.rot.mulVec b.tr).add a.tr).map positiveMod) ⟨rfl, rfl⟩ h (.of_cong _ (cong_map_positiveMod _))

/-- All elements of the list are operations of the group. -/
def AllIn (n : HallSymbolNotation) (L : List M4) : Prop := ∀ m ∈ L, m.Affine ∧ InGroup n m

theorem AllIn.append {n : HallSymbolNotation} {L L' : List M4} (h : AllIn n L) (h' : AllIn n L') : AllIn n (L ++ L') := by
  intro m hm
  exact (List.mem_append.1 hm).elim (h m) (h' m)

theorem AllIn.single {n : HallSymbolNotation} {m : M4} (h : m.Affine ∧ InGroup n m) : AllIn n [m] := by
  intro m' hm
  rw [List.mem_singleton.1 hm]; exact h

theorem coset_inGroup {n : HallSymbolNotation} {H : List M4} (hH : AllIn n H) {r : M4} (hr : InGroup n r) : AllIn n (coset H r) := by
  intro m hm
  obtain ⟨a, ha, rfl⟩ := List.mem_map.1 hm
  exact nmul_inGroup (hH a ha).2 hr

theorem extend_inGroup {n : HallSymbolNotation} {gs H : List M4} (hgs : AllIn n gs) (hH : AllIn n H) {r : M4} (hr : InGroup n r)
    {q : List M4 × List M4} (h1 : AllIn n q.1) (h2 : AllIn n q.2) : AllIn n (extend gs H r q).1 ∧ AllIn n (extend gs H r q).2 := by
  unfold extend
  induction gs generalizing q with
  | nil => exact ⟨h1, h2⟩
  | cons g gs ih =>
    have hc := nmul_inGroup hr (hgs g (List.mem_cons_self ..)).2
    have hgs' : AllIn n gs := fun g' h' => hgs g' (List.mem_cons_of_mem _ h')
    rw [List.foldl_cons]
    dsimp only
    cases newRot q.2 (r.nmul g).rot with
    | true => exact ih hgs' (h1.append (.single hc)) (h2.append (coset_inGroup hH hc.2))
    | false => exact ih hgs' h1 h2

theorem cosets_inGroup {n : HallSymbolNotation} {gs H : List M4} (hgs : AllIn n gs) (hH : AllIn n H) (fuel k : Nat)
    {q : List M4 × List M4} (h1 : AllIn n q.1) (h2 : AllIn n q.2) : AllIn n (cosets gs H fuel k q) := by
  induction fuel generalizing k q with
  | zero => exact h2
  | succ fuel ih =>
    unfold cosets
    split
    · exact h2
    · rename_i r hr
      have := extend_inGroup hgs hH (h1 r (List.mem_of_getElem? hr)).2 h1 h2
      exact ih _ this.1 this.2

theorem dimino_inGroup {n : HallSymbolNotation} {rest : List M4} (hr : AllIn n rest) {gs L : List M4} (hgs : AllIn n gs)
    (hL : AllIn n L) : AllIn n (dimino rest gs L) := by
  induction rest generalizing gs L with
  | nil => exact hL
  | cons g rest ih =>
    have hg := hr g (List.mem_cons_self ..)
    have hr' : AllIn n rest := fun g' h' => hr g' (List.mem_cons_of_mem _ h')
    have hgs' : AllIn n (gs ++ [g]) := hgs.append (.single hg)
    unfold dimino
    cases newRot L g.rot with
    | true => exact ih hr' hgs' (cosets_inGroup hgs' hL 48 0 (.single hg) (hL.append (coset_inGroup hL hg.2)))
    | false => exact ih hr' hgs hL

theorem certList_inGroup {n : HallSymbolNotation} {ms : List M4} (hms : n.seitzMatrices = some ms) :
    ∀ m ∈ certList n ms, m.Affine ∧ InGroup n m := by
  unfold certList
  refine dimino_inGroup (gens_inGroup hms) (fun _ h => nomatch h) (.single ?_)
  refine ⟨⟨rfl, rfl⟩, ?_⟩
  have : M4.identity.act = id := M4.act_mk_one _ _ _ rfl
  unfold InGroup
  rw [this]
  exact .one

end Verif
