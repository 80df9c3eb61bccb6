import Verif.Proofs.Positions
import Verif.Proofs.Certificate
import Verif.Model.Parser

/-! # Properties of position generation (C31-C37, C39, C45) -/

namespace Verif

/-- The notation read from a text (for examples; texts that do not parse give the symbol `P`). -/
def hall (s : String) : HallSymbolNotation :=
  (HallSymbolNotation.tryFromStr s.toList).getD ⟨⟨false, .P⟩, [], .default⟩

/-- A computation that stopped normally: the notation has general positions `g` after some number of rounds. -/
def HasPositions (n : HallSymbolNotation) (g : GeneralPositions) : Prop :=
  ∃ rounds, n.generalPositions rounds = some (.ok g)

/-- Sample symbol used by the examples: `-C 2c 2` (Cmcm), 8 core positions, 2 lattice translations. -/
def sampleN : HallSymbolNotation := hall "-C 2c 2"

/-- Its general positions. -/
def sampleG : GeneralPositions :=
  ⟨[⟨0, 0, 0⟩, ⟨6, 6, 0⟩],
   [⟨⟨1, 0, 0, 0, 1, 0, 0, 0, 1⟩, ⟨0, 0, 0⟩, ⟨0, 0, 0⟩, 1⟩,
    ⟨⟨-1, 0, 0, 0, -1, 0, 0, 0, 1⟩, ⟨0, 0, 6⟩, ⟨0, 0, 0⟩, 1⟩,
    ⟨⟨-1, 0, 0, 0, 1, 0, 0, 0, -1⟩, ⟨0, 0, 6⟩, ⟨0, 0, 0⟩, 1⟩,
    ⟨⟨1, 0, 0, 0, -1, 0, 0, 0, -1⟩, ⟨0, 0, 0⟩, ⟨0, 0, 0⟩, 1⟩,
    ⟨⟨1, 0, 0, 0, -1, 0, 0, 0, 1⟩, ⟨0, 0, 6⟩, ⟨0, 0, 0⟩, 1⟩,
    ⟨⟨-1, 0, 0, 0, 1, 0, 0, 0, 1⟩, ⟨0, 0, 0⟩, ⟨0, 0, 0⟩, 1⟩,
    ⟨⟨-1, 0, 0, 0, -1, 0, 0, 0, -1⟩, ⟨0, 0, 0⟩, ⟨0, 0, 0⟩, 1⟩,
    ⟨⟨1, 0, 0, 0, 1, 0, 0, 0, -1⟩, ⟨0, 0, 6⟩, ⟨0, 0, 0⟩, 1⟩]⟩

theorem sample_positions : HasPositions sampleN sampleG := ⟨10, by decide +kernel⟩

theorem sample_consistent : Consistent sampleN := by
  have hms : sampleN.seitzMatrices = some ((sampleN.seitzMatrices).getD []) := by decide +kernel
  exact (checkCert_sound (L := certList sampleN ((sampleN.seitzMatrices).getD [])) (by decide +kernel)).consistent hms

/-- The result does not depend on how long one is prepared to wait. -/
theorem positions_unique {n : HallSymbolNotation} {g g' : GeneralPositions} (h : HasPositions n g)
    (h' : HasPositions n g') : g = g' := by
  obtain ⟨k, h⟩ := h
  obtain ⟨k', h'⟩ := h'
  obtain ⟨ms, st, _, a1, a2, a3, a4, a5⟩ := generalPositions_ok h
  obtain ⟨ms', st', _, b1, b2, b3, b4, b5⟩ := generalPositions_ok h'
  rw [a1] at b1
  obtain rfl := Option.some.inj b1
  have e : st = st' := by
    rcases Nat.le_total k k' with hk | hk
    · rw [rounds_mono hk a3] at b3; exact Option.some.inj b3
    · rw [rounds_mono hk b3] at a3; exact (Option.some.inj a3).symm
  subst e
  rw [a4] at b4
  obtain ⟨l, c⟩ := g
  obtain ⟨l', c'⟩ := g'
  simp only [] at a5 b5 b4
  rw [a5, b5, Except.ok.inj b4]

example : ∃ g, HasPositions sampleN g ∧ g.corePositionSet.length = 8 := ⟨_, sample_positions, rfl⟩

/-- C31. Every listed operation belongs to the group of the symbol. -/
theorem positions_in_group {n : HallSymbolNotation} {g : GeneralPositions} (h : HasPositions n g) :
    ∀ set ∈ g.deriveFullSets, ∀ m ∈ set, m.Affine ∧ SpaceGroup n m.act := by
  obtain ⟨k, h⟩ := h
  obtain ⟨st, hF, hp, hl⟩ := final_of_ok h
  intro set hset m hm
  obtain ⟨v, hv, c, hc, rfl⟩ := mem_full.1 ⟨set, hset, hm⟩
  rw [hl] at hv
  have hc' := hp.mem_iff.1 hc
  obtain ⟨τ, hτ, e⟩ := addV_act c v _ hv
  refine ⟨hF.inv.affine c hc', ?_⟩
  rw [e]
  exact (SpaceGroup.lattice hτ).comp (hF.inv.all c hc')

example : ∃ set ∈ sampleG.deriveFullSets, ∃ m ∈ set, m.rot ≠ M3.one ∧ m.tr ≠ V3.zero :=
  ⟨_, List.mem_cons_self .., ⟨⟨-1, 0, 0, 0, -1, 0, 0, 0, 1⟩, ⟨0, 0, 6⟩, ⟨0, 0, 0⟩, 1⟩, by decide, by decide, by decide⟩

/-- C32. No two listed operations are equal modulo whole cells; no two core positions are equal modulo the lattice. -/
theorem positions_distinct {n : HallSymbolNotation} {g : GeneralPositions} (h : HasPositions n g) :
    g.deriveFullSets.flatten.Pairwise (fun a b => ¬ SameModCell a.act b.act) ∧
    g.corePositionSet.Pairwise
      (fun a b => ¬ ∃ τ, IsLatticeTranslation n.latticeSymbol τ ∧ a.act = τ ∘ b.act) := by
  obtain ⟨k, h⟩ := h
  obtain ⟨st, hF, hp, hl⟩ := final_of_ok h
  have hcore : g.corePositionSet.Pairwise (fun a b => ¬ SamePos n.latticeSymbol a b) :=
    (hp.pairwise_iff (fun {a b} hab hba => hab hba.symm)).2 hF.inv.distinct
  refine ⟨?_, hcore.imp ?_⟩
  · unfold GeneralPositions.deriveFullSets
    rw [hl, List.pairwise_flatten]
    constructor
    · intro set hset
      obtain ⟨v, hv, rfl⟩ := List.mem_map.1 hset
      rw [List.pairwise_map]
      refine hcore.imp ?_
      intro a b hne hs
      obtain ⟨h1, h2⟩ := M4.cong_of_sameModCell hs
      apply hne
      refine ⟨h1, .of_cong _ ?_⟩
      have h3 := ((V3.cong_map_tmod (a.tr.add v)).symm.trans h2).trans (V3.cong_map_tmod (b.tr.add v))
      have h4 := h3.add (V3.Cong.refl v.neg)
      have e : ∀ u : V3, (u.add v).add v.neg = u := fun u => by rw [V3.add_assoc, V3.add_neg_self, V3.add_zero]
      rwa [e, e] at h4
    · rw [List.pairwise_map]
      refine (Lattices.nodup_cong _).imp_of_mem ?_
      intro v w hv hw hne a ha b hb hs
      obtain ⟨c, hc, rfl⟩ := List.mem_map.1 ha
      obtain ⟨d, hd, rfl⟩ := List.mem_map.1 hb
      obtain ⟨h1, h2⟩ := M4.cong_of_sameModCell hs
      have h3 := ((V3.cong_map_tmod (c.tr.add v)).symm.trans h2).trans (V3.cong_map_tmod (d.tr.add w))
      -- c and d agree modulo the lattice, so they are the same element
      have hcd : SamePos n.latticeSymbol c d := by
        refine ⟨h1, ?_⟩
        have a1 : LatCong n.latticeSymbol (c.tr.add v) c.tr := ⟨v, hv, .refl _⟩
        have a2 : LatCong n.latticeSymbol (d.tr.add w) d.tr := ⟨w, hw, .refl _⟩
        exact a1.symm.trans ((LatCong.of_cong _ h3).trans a2)
      have hcd' : c = d := by
        by_contra hne'
        have : Std.Symm (fun a b : M4 => ¬ SamePos n.latticeSymbol a b) := ⟨fun a b hab hba => hab hba.symm⟩
        exact (hcore.forall hc hd hne') hcd
      subst hcd'
      apply hne
      have h4 := (V3.Cong.refl c.tr.neg).add h3
      have e : ∀ u : V3, c.tr.neg.add (c.tr.add u) = u := fun u => by
        rw [← V3.add_assoc, V3.neg_add_self, V3.zero_add]
      rwa [e, e] at h4
  · rintro a b hne ⟨τ, hτ, e⟩
    exact hne (latCong_of_lattice_comp hτ e)

example : sampleG.deriveFullSets.flatten.length = 16 := by decide

/-- C33. Normal form of the listed operations; the first core position is the identity. -/
theorem positions_normalised {n : HallSymbolNotation} {g : GeneralPositions} (h : HasPositions n g) :
    (∀ m ∈ g.corePositionSet ++ g.deriveFullSets.flatten, m.Affine ∧ (0 ≤ m.tr.x ∧ m.tr.x < 12) ∧
      (0 ≤ m.tr.y ∧ m.tr.y < 12) ∧ (0 ≤ m.tr.z ∧ m.tr.z < 12)) ∧
    g.corePositionSet.head? = some M4.identity := by
  obtain ⟨k, h⟩ := h
  obtain ⟨ms, st, _, a1, a2, a3, a4, a5⟩ := generalPositions_ok h
  have hF := final_of_rounds a1 a3
  have hp := HallSymbolNotation.sort_perm a4
  constructor
  · intro m hm
    rcases List.mem_append.1 hm with hm | hm
    · have := hp.mem_iff.1 hm
      exact ⟨hF.inv.affine m this, hF.inv.red m this⟩
    · obtain ⟨set, hset, hm⟩ := List.mem_flatten.1 hm
      obtain ⟨v, hv, c, hc, rfl⟩ := mem_full.1 ⟨set, hset, hm⟩
      have hc' := hp.mem_iff.1 hc
      rw [a5] at hv
      obtain ⟨⟨x1, x2⟩, ⟨y1, y2⟩, ⟨z1, z2⟩⟩ := hF.inv.red c hc'
      obtain ⟨⟨u1, u2⟩, ⟨v1, v2⟩, ⟨w1, w2⟩⟩ := n.latticeSymbol.red hv
      refine ⟨hF.inv.affine c hc', ?_, ?_, ?_⟩ <;> simp only [M4.addV, V3.map, V3.add, base]
      · rw [tmod12_nonneg (by omega)]; omega
      · rw [tmod12_nonneg (by omega)]; omega
      · rw [tmod12_nonneg (by omega)]; omega
  · obtain ⟨t, ht⟩ := hF.start
    have hcons : ∃ rest, st.list = M4.identity :: rest := by
      split at ht
      · exact ⟨_, ht.symm⟩
      · exact ⟨_, ht.symm⟩
    obtain ⟨rest, hrest⟩ := hcons
    rw [hrest] at a4
    refine sort_head a4 ?_
    intro order ho
    unfold HallSymbolNotation.matriceOrder at ho
    split at ho
    · cases ho
    · split at ho <;> cases ho <;> decide +kernel

example : sampleG.corePositionSet.head? = some M4.identity ∧
    ∃ m ∈ sampleG.corePositionSet, m.tr.z = 6 := ⟨rfl, by decide⟩

/-- The rotation parts of the core positions are exactly the point group of the symbol (whether or not the symbol is
consistent). -/
theorem rotations_are_point_group {n : HallSymbolNotation} {g : GeneralPositions} (h : HasPositions n g) :
    PointGroup n = {r | ∃ m ∈ g.corePositionSet, m.rot = r} := by
  obtain ⟨k, h⟩ := h
  obtain ⟨st, hF, hp, hl⟩ := final_of_ok h
  rw [hF.pointGroup]
  ext r
  simp only [rotSet]
  constructor
  · rintro ⟨m, hm, e⟩; exact ⟨m, hp.mem_iff.2 hm, e⟩
  · rintro ⟨m, hm, e⟩; exact ⟨m, hp.mem_iff.1 hm, e⟩

example : (⟨-1, 0, 0, 0, 1, 0, 0, 0, 1⟩ : M3) ∈ PointGroup sampleN := by
  rw [rotations_are_point_group sample_positions]
  exact ⟨⟨⟨-1, 0, 0, 0, 1, 0, 0, 0, 1⟩, ⟨0, 0, 0⟩, ⟨0, 0, 0⟩, 1⟩, by decide, rfl⟩

/-- C34. For a consistent symbol, a map of space belongs to the group exactly when it is listed. -/
theorem positions_complete {n : HallSymbolNotation} {g : GeneralPositions} (h : HasPositions n g)
    (hn : Consistent n) (f : Pt → Pt) : SpaceGroup n f ↔ Listed g f := by
  obtain ⟨k, h⟩ := h
  obtain ⟨st, hF, hp, hl⟩ := final_of_ok h
  constructor
  · intro hf
    obtain ⟨m, hm, τ, ⟨v, hv, k, hτ⟩, rfl⟩ := hF.complete hn hf
    have hmem : ∃ set ∈ g.deriveFullSets, m.addV v ∈ set :=
      mem_full.2 ⟨v, by rw [hl]; exact hv, m, hp.mem_iff.2 hm, rfl⟩
    obtain ⟨set, hset, hms⟩ := hmem
    refine ⟨set, hset, m.addV v, hms, ?_⟩
    obtain ⟨k', h'⟩ := M4.sameModCell_of_cong (a := ⟨m.rot, m.tr.add v, V3.zero, 1⟩) (b := m.addV v) rfl
      (V3.cong_map_tmod _).symm
    rw [← trMat_comp, trMat_act] at h'
    refine ⟨k'.add k, fun p => ?_⟩
    have := h' p
    simp only [Function.comp_apply] at this ⊢
    rw [hτ, this]
    ext <;> simp [Pt.addCell] <;> ring
  · rintro ⟨set, hset, m, hm, k', hk⟩
    have hm' := (positions_in_group ⟨_, h⟩ set hset m hm).2
    have e : f = (fun p : Pt => p.addCell k') ∘ m.act := by funext p; exact hk p
    rw [e]
    exact (SpaceGroup.cell k').comp hm'

example : Consistent sampleN ∧ HasPositions sampleN sampleG := ⟨sample_consistent, sample_positions⟩

/-- C35. For consistent symbols the core positions are closed under product and inverse modulo the lattice, and their
number is the order of the point group. -/
theorem positions_form_group {n : HallSymbolNotation} {g : GeneralPositions} (h : HasPositions n g)
    (hn : Consistent n) :
    (∀ a ∈ g.corePositionSet, ∀ b ∈ g.corePositionSet, ∃ c ∈ g.corePositionSet, ∃ v ∈ g.latticeTranslations,
      M4.eqv (a.mul b) (c.addV v) = true) ∧
    (∀ a ∈ g.corePositionSet, ∃ c ∈ g.corePositionSet, ∃ v ∈ g.latticeTranslations,
      M4.eqv (a.mul (c.addV v)) M4.identity = true ∧ M4.eqv ((c.addV v).mul a) M4.identity = true) ∧
    (PointGroup n).Finite ∧ g.numOfGeneralPos = (PointGroup n).ncard := by
  obtain ⟨k, h⟩ := h
  obtain ⟨st, hF, hp, hl⟩ := final_of_ok h
  have hlat : ∀ a c : M4, a.rot = c.rot → LatCong n.latticeSymbol a.tr c.tr →
      ∃ v ∈ g.latticeTranslations, M4.eqv a (c.addV v) = true := by
    rintro a c h1 ⟨v, hv, hc⟩
    refine ⟨v, by rw [hl]; exact hv, M4.eqv_iff.2 ⟨h1, hc.trans (V3.cong_map_tmod _).symm⟩⟩
  refine ⟨?_, ?_, hF.card_le.1, ?_⟩
  · intro a ha b hb
    have ha' := hp.mem_iff.1 ha
    have hb' := hp.mem_iff.1 hb
    have hab := inGroup_mulStable n a b (hF.inv.affine a ha') (hF.inv.affine b hb') (hF.inv.all a ha') (hF.inv.all b hb')
    obtain ⟨c, hc, hcr⟩ := hF.closed a ha' b hb'
    have hrot : (a.mul b).rot = c.rot := (M4.mul_rot (hF.inv.affine b hb')).trans hcr.symm
    obtain ⟨v, hv, e⟩ := hlat (a.mul b) c hrot (hn.latCong hab (hF.inv.all c hc) hrot)
    exact ⟨c, hp.mem_iff.2 hc, v, hv, e⟩
  · intro a ha
    have ha' := hp.mem_iff.1 ha
    have hA := hF.inv.all a ha'
    have hu := SpaceGroup.unimod hA
    obtain ⟨c, hc, hcr⟩ := hF.rot_of_group (SpaceGroup.uinv hA) a.uinv rfl
    have hcr' : c.rot = a.rot.uinv := hcr
    have hC := hF.inv.all c hc
    have hca := hF.inv.affine c hc
    have hinv := hn.latCong (SpaceGroup.uinv hA) hC hcr.symm
    obtain ⟨v, hv, e⟩ := hlat a.uinv c hcr.symm hinv
    have hvaff : (c.addV v).Affine := hca
    obtain ⟨_, hcong⟩ := M4.eqv_iff.1 e
    refine ⟨c, hp.mem_iff.2 hc, v, hv, ?_, ?_⟩
    · rw [M4.eqv_iff]
      refine ⟨?_, ?_⟩
      · rw [M4.mul_rot hvaff]
        change a.rot.mul c.rot = M3.one
        rw [hcr', M3.mul_uinv hu]
      · refine (M4.mul_tr_cong hvaff).trans ?_
        refine ((a.rot.mulVec_cong hcong.symm).add (.refl _)).trans ?_
        simp only [M4.uinv, M3.mulVec_neg, M3.mulVec_mulVec, M3.mul_uinv hu, M3.one_mulVec, V3.neg_add_self]
        exact .refl _
    · rw [M4.eqv_iff]
      refine ⟨?_, ?_⟩
      · rw [M4.mul_rot (hF.inv.affine a ha')]
        change c.rot.mul a.rot = M3.one
        rw [hcr', M3.uinv_mul hu]
      · refine (M4.mul_tr_cong (hF.inv.affine a ha')).trans ?_
        change V3.Cong ((c.rot.mulVec a.tr).add (c.addV v).tr) _
        refine ((V3.Cong.refl _).add hcong.symm).trans ?_
        simp only [M4.uinv, hcr', V3.add_neg_self]
        exact .refl _
  · exact hp.length_eq.trans (hF.card hn)

example : sampleG.numOfGeneralPos = 8 ∧ Consistent sampleN ∧ HasPositions sampleN sampleG :=
  ⟨rfl, sample_consistent, sample_positions⟩

/-- The listed operations always cover the point group; a symbol that is not consistent can only list more. -/
theorem point_group_le_positions {n : HallSymbolNotation} {g : GeneralPositions} (h : HasPositions n g) :
    (PointGroup n).Finite ∧ (PointGroup n).ncard ≤ g.numOfGeneralPos := by
  obtain ⟨k, h⟩ := h
  obtain ⟨st, hF, hp, hl⟩ := final_of_ok h
  exact ⟨hF.card_le.1, hF.card_le.2.trans (le_of_eq hp.length_eq.symm)⟩

/-- C36, for consistent symbols: every generator is listed modulo the lattice. (What is missing: symbols that are not
consistent, for which the statement fails, see `generator_lost`.) -/
theorem generators_listed_partial {n : HallSymbolNotation} {g : GeneralPositions} (h : HasPositions n g)
    (hn : Consistent n) : ∀ s ∈ n.matrixSymbols, ∀ m, s.seitzMatrix = some m →
      ListedModLattice n.latticeSymbol g.corePositionSet
        (fun p => (m.act (p.subTwelfths n.originShift.vec)).addTwelfths n.originShift.vec) := by
  intro s hs m hm
  obtain ⟨k, h⟩ := h
  obtain ⟨st, hF, hp, hl⟩ := final_of_ok h
  obtain ⟨c, hc, τ, hτ, e⟩ := hF.complete hn (SpaceGroup.generator hs hm)
  exact ⟨c, hp.mem_iff.2 hc, τ, hτ, e⟩

example : ∃ s ∈ sampleN.matrixSymbols, ∃ m, s.seitzMatrix = some m ∧ m.rot ≠ M3.one :=
  ⟨⟨false, .N2, .None, .None, .Z, some [.C]⟩, by decide +kernel, _, rfl, by decide⟩

/-- C36 fails in general: the half-cell translation written in `P 1a` is dropped without notice. -/
theorem generator_lost : ∃ (n : HallSymbolNotation) (g : GeneralPositions), HasPositions n g ∧
    n = hall "P 1a" ∧ ∃ s ∈ n.matrixSymbols, ∃ m, s.seitzMatrix = some m ∧
      ¬ ListedModLattice n.latticeSymbol g.corePositionSet
        (fun p => (m.act (p.subTwelfths n.originShift.vec)).addTwelfths n.originShift.vec) := by
  refine ⟨hall "P 1a", ⟨[⟨0, 0, 0⟩], [M4.identity]⟩, ⟨3, by decide +kernel⟩, rfl,
    ⟨false, .N1, .None, .None, .Z, some [.A]⟩, by decide +kernel,
    ⟨M3.one, ⟨6, 0, 0⟩, V3.zero, 1⟩, by decide +kernel, ?_⟩
  rintro ⟨c, hc, τ, hτ, e⟩
  obtain rfl := List.mem_singleton.1 hc
  rw [shifted_act] at e
  obtain ⟨_, h2⟩ := latCong_of_lattice_comp hτ e
  revert h2
  decide +kernel

/-- C37. If every matrix symbol is valid and the capacity request is accepted, generation stops exactly when the
rotations generate a finite group. -/
theorem generation_stops_iff {n : HallSymbolNotation} {ms : List M4} {cap : Nat}
    (hv : n.seitzMatrices = some ms) (hcap : n.maxEquivPos ms = .ok cap) :
    (∃ rounds r, n.generalPositions rounds = some r) ↔ (PointGroup n).Finite := by
  constructor
  · rintro ⟨k, r, h⟩
    unfold HallSymbolNotation.generalPositions HallSymbolNotation.generatePositions at h
    rw [hv] at h
    simp only [hcap] at h
    cases hr : n.latticeSymbol.rounds k (n.startState ms) with
    | none => rw [hr] at h; cases h
    | some st => exact (final_of_rounds hv hr).card_le.1
  · intro hf
    obtain ⟨k, st, hst⟩ := rounds_of_finite hv hf
    refine ⟨k, ?_⟩
    unfold HallSymbolNotation.generalPositions HallSymbolNotation.generatePositions
    rw [hv]
    simp only [hcap, hst]
    exact ⟨_, rfl⟩

example : (∃ ms cap, sampleN.seitzMatrices = some ms ∧ sampleN.maxEquivPos ms = .ok cap) ∧
    (PointGroup sampleN).Finite :=
  ⟨⟨(sampleN.seitzMatrices).getD [], 16, by decide +kernel, by decide +kernel⟩,
    (positions_form_group sample_positions sample_consistent).2.2.1⟩

/-- The other symbols stop at once (with a panic). -/
theorem generation_stops_on_panic (n : HallSymbolNotation)
    (h : n.seitzMatrices = none ∨ ∃ ms e, n.seitzMatrices = some ms ∧ n.maxEquivPos ms = .error e) (rounds : Nat) :
    ∃ e, n.generalPositions rounds = some (.error e) := by
  unfold HallSymbolNotation.generalPositions HallSymbolNotation.generatePositions
  rcases h with h | ⟨ms, e, h, h'⟩
  · rw [h]; exact ⟨_, rfl⟩
  · rw [h]; simp only [h']; exact ⟨e, rfl⟩

example : ∃ s, HallSymbolNotation.tryFromStr s = some (hall "P 1 2'") ∧ (hall "P 1 2'").seitzMatrices = none :=
  ⟨"P 1 2'".toList, by decide +kernel, by decide +kernel⟩

/-- Powers of the product of the two rotations of `P 6 4`. -/
theorem shear_pow (k : Nat) : (M3.pow ⟨-1, -1, 0, 0, -1, 0, 0, 0, 1⟩ (2 * k)) = ⟨1, 2 * k, 0, 0, 1, 0, 0, 0, 1⟩ := by
  induction k with
  | zero => rfl
  | succ k ih =>
    have : 2 * (k + 1) = 2 * k + 1 + 1 := by omega
    rw [this]
    simp only [M3.pow, ih]
    ext <;> simp [M3.mul]
    ring

/-- The symbol `P 6 4` parses, its generators are valid, and generation never stops. -/
theorem generation_diverges : HallSymbolNotation.tryFromStr "P 6 4".toList = some (hall "P 6 4") ∧
    ∀ rounds, (hall "P 6 4").generalPositions rounds = none := by
  refine ⟨by decide +kernel, ?_⟩
  intro k
  by_contra hne
  obtain ⟨r, hr⟩ := Option.ne_none_iff_exists'.1 hne
  have hv : (hall "P 6 4").seitzMatrices = some [⟨⟨1, -1, 0, 1, 0, 0, 0, 0, 1⟩, V3.zero, V3.zero, 1⟩,
      ⟨⟨0, -1, 0, 1, 0, 0, 0, 0, 1⟩, V3.zero, V3.zero, 1⟩] := by decide +kernel
  have hfin := (generation_stops_iff (cap := 24) hv (by decide +kernel)).1 ⟨k, r, hr⟩
  have hgen : ∀ s ∈ (hall "P 6 4").matrixSymbols, ∀ m, s.seitzMatrix = some m → m.rot ∈ PointGroup (hall "P 6 4") := by
    intro s hs m hm
    refine ⟨_, SpaceGroup.generator hs hm, _, ?_, shifted_act _ _⟩
    rfl
  have hmul : ∀ a ∈ PointGroup (hall "P 6 4"), ∀ b ∈ PointGroup (hall "P 6 4"), a.mul b ∈ PointGroup (hall "P 6 4") := by
    rintro _ ⟨_, hf, a, rfl, rfl⟩ _ ⟨_, hg, b, rfl, rfl⟩
    exact ⟨_, hf.comp hg, _, rfl, M4.act_comp a b⟩
  have hone : M3.one ∈ PointGroup (hall "P 6 4") := ⟨_, .one, trMat V3.zero, rfl, (M4.act_mk_one _ _ _ rfl).symm⟩
  have h6 := hgen ⟨false, .N6, .None, .None, .Z, none⟩ (by decide +kernel) _ rfl
  have h4 := hgen ⟨false, .N4, .None, .None, .Z, none⟩ (by decide +kernel) _ rfl
  have hs : (⟨-1, -1, 0, 0, -1, 0, 0, 0, 1⟩ : M3) ∈ PointGroup (hall "P 6 4") := hmul _ h6 _ h4
  have hp : ∀ k, M3.pow ⟨-1, -1, 0, 0, -1, 0, 0, 0, 1⟩ k ∈ PointGroup (hall "P 6 4") := by
    intro k
    induction k with
    | zero => exact hone
    | succ k ih => exact hmul _ ih _ hs
  have hinj : Function.Injective (fun k : Nat => M3.pow ⟨-1, -1, 0, 0, -1, 0, 0, 0, 1⟩ (2 * k)) := by
    intro i j e
    simp only [shear_pow, M3.mk.injEq] at e
    omega
  exact Set.infinite_of_injective_forall_mem hinj (fun k => hp (2 * k)) hfin

/-- The reference list selected by the first matrix symbol of a notation. -/
def referenceOrder (n : HallSymbolNotation) : Option (List String) :=
  match n.matrixSymbols with
  | [] => none
  | m :: _ =>
    if m.nfoldBody = .N6 then some Data.order24
    else if m.nfoldBody = .N3 then (if m.nfoldDiag = .Asterisk then some Data.order12 else some Data.order24)
    else some Data.order48

/-- `text` first occurs in `order` at position `i`. -/
def FirstAt (order : List String) (text : List Char) (i : Nat) : Prop :=
  (∃ s, order[i]? = some s ∧ s.toList = text) ∧ ∀ j s, j < i → order[j]? = some s → s.toList ≠ text

theorem orderIndex_firstAt {order : List String} {text : List Char} {i : Nat}
    (h : HallSymbolNotation.orderIndex order text = some i) : FirstAt order text i := by
  induction order generalizing i with
  | nil => cases h
  | cons s order ih =>
    unfold HallSymbolNotation.orderIndex at h
    split at h
    · rename_i hs
      cases h
      exact ⟨⟨s, rfl, hs⟩, by omega⟩
    · rename_i hs
      cases hi : HallSymbolNotation.orderIndex order text with
      | none => rw [hi] at h; cases h
      | some i' =>
        rw [hi] at h
        cases h
        obtain ⟨h1, h2⟩ := ih hi
        refine ⟨h1, ?_⟩
        intro j s' hj hs'
        cases j with
        | zero => cases hs'; exact hs
        | succ j => exact h2 j s' (Nat.lt_of_succ_lt_succ hj) hs'

/-- C39. Sorting: a rearrangement, non-decreasing in the reference order, keeping generation order per rotation. -/
theorem output_order {n : HallSymbolNotation} {g : GeneralPositions} (h : HasPositions n g) :
    ∃ (order : List String) (generated : List M4), referenceOrder n = some order ∧
      generated.head? = some M4.identity ∧
      g.corePositionSet.Perm generated ∧
      g.corePositionSet.Pairwise (fun a b => ∃ ta tb i j, a.jonesRot = .ok ta ∧ b.jonesRot = .ok tb ∧
        FirstAt order ta i ∧ FirstAt order tb j ∧ i ≤ j) ∧
      ∀ r, g.corePositionSet.filter (fun m => decide (m.rot = r)) = generated.filter (fun m => decide (m.rot = r)) := by
  obtain ⟨k, h⟩ := h
  obtain ⟨ms, st, _, a1, a2, a3, a4, a5⟩ := generalPositions_ok h
  obtain ⟨order, ho, _, hsorted⟩ := HallSymbolNotation.sort_sorted a4
  have hF := final_of_rounds a1 a3
  refine ⟨order, st.list, ?_, ?_, HallSymbolNotation.sort_perm a4, ?_, HallSymbolNotation.sort_stable a4⟩
  · unfold HallSymbolNotation.matriceOrder at ho
    unfold referenceOrder
    cases hm : n.matrixSymbols with
    | nil => rw [hm] at ho; cases ho
    | cons m ms =>
      rw [hm] at ho
      simp only [] at ho ⊢
      cases hb : m.nfoldBody <;> cases hd : m.nfoldDiag <;> rw [hb, hd] at ho <;> cases ho <;> rfl
  · obtain ⟨t, ht⟩ := hF.start
    rw [← ht]
    split <;> rfl
  · refine hsorted.imp ?_
    rintro a b ⟨i, j, hi, hj, hij⟩
    have key : ∀ (m : M4) (i : Nat), HallSymbolNotation.sortKey order m = .ok i →
        ∃ t, m.jonesRot = .ok t ∧ FirstAt order t i := by
      intro m i hm
      unfold HallSymbolNotation.sortKey at hm
      cases ht : m.jonesRot with
      | error e => rw [ht] at hm; cases hm
      | ok t =>
        rw [ht] at hm
        change (match HallSymbolNotation.orderIndex order t with
          | some i => pure i | none => Except.error Panic.orderMismatch) = Except.ok i at hm
        cases hidx : HallSymbolNotation.orderIndex order t with
        | none => rw [hidx] at hm; cases hm
        | some i' =>
          rw [hidx] at hm
          cases hm
          exact ⟨t, rfl, orderIndex_firstAt hidx⟩
    obtain ⟨ta, h1, h2⟩ := key a i hi
    obtain ⟨tb, h3, h4⟩ := key b j hj
    exact ⟨ta, tb, i, j, h1, h3, h2, h4, hij⟩

example : ∃ g, HasPositions sampleN g ∧ 2 ≤ g.corePositionSet.length := ⟨_, sample_positions, by decide⟩

/-- C45. A leading minus sign puts the inversion at the origin among the general positions. -/
theorem inversion_listed {n : HallSymbolNotation} {g : GeneralPositions} (h : HasPositions n g)
    (hm : n.latticeSymbol.minusSign = true) :
    M4.inversion ∈ g.corePositionSet ∧ ∀ p, M4.inversion.act p = ⟨-p.x, -p.y, -p.z⟩ := by
  obtain ⟨k, h⟩ := h
  obtain ⟨st, hF, hp, hl⟩ := final_of_ok h
  exact ⟨hp.mem_iff.2 (hF.inversion_mem hm), fun p => (congrFun inversion_act p).symm⟩

example : sampleN.latticeSymbol.minusSign = true := by decide +kernel

end Verif
