import Verif.Rows.All
import Verif.Rows.Pairs
import Verif.Props.Success
import Verif.Props.Classification

/-! # What the row checks mean -/

namespace Verif

theorem fitsB_iff {n : HallSymbolNotation} {r : M3} (h : fitsB n r = true) : FitsFirstSymbol n r := by
  unfold fitsB at h
  unfold FitsFirstSymbol
  split at h
  · cases h
  · rename_i m rest e
    rw [e]
    simp only []
    split at h <;> simp_all [M3.Rhombohedral]

/-! ## Kinds of rotations -/

theorem typeB_iff {t : RotationType} {r : M3} :
    typeB t r = true ↔ M4.rotationType ⟨r, V3.zero, V3.zero, 1⟩ = some t := by
  rw [M4.rotationType_eq _ ⟨rfl, rfl⟩]
  simp only [typeB, Bool.and_eq_true, intEqB_iff]
  generalize r.det = d
  generalize r.trace = s
  constructor
  · rintro ⟨rfl, rfl⟩
    cases t <;> rfl
  · intro h
    split at h <;> cases h <;> exact ⟨rfl, rfl⟩

theorem HasOrder.unique {r : M3} {a b : Nat} (ha : r.HasOrder a) (hb : r.HasOrder b) : a = b := by
  rcases Nat.lt_trichotomy a b with h | h | h
  · exact absurd ha.2.1 (hb.2.2 a ha.1 h)
  · exact h
  · exact absurd hb.2.1 (ha.2.2 b hb.1 h)

theorem isKind_iff {r : M3} (hf : r.FiniteOrder) (t : RotationType) :
    r.IsKind t ↔ M4.rotationType ⟨r, V3.zero, V3.zero, 1⟩ = some t := by
  obtain ⟨t0, k, h1, h2, h3⟩ := rotation_type_correct ⟨r, V3.zero, V3.zero, 1⟩ ⟨rfl, rfl⟩ hf
  have hk : k = t0.fold := by
    unfold M4.equivNum at h2
    rw [h1] at h2
    simp only [Except.ok.injEq] at h2
    rw [← h2]; cases t0 <;> rfl
  simp only [M4.rotationPart] at h3
  have h0 : r.IsKind t0 := by
    unfold M3.IsKind
    rcases h3 with ⟨a, b, c⟩ | ⟨a, b, c⟩
    · rw [if_neg (by rw [a]; exact Bool.false_ne_true), ← hk]; exact ⟨b, c⟩
    · rw [if_pos a, ← hk, M3.neg_det, b]; exact ⟨rfl, c⟩
  rw [h1]
  constructor
  · intro h
    unfold M3.IsKind at h h0
    rw [M3.neg_det] at h h0
    by_cases a : t.improper = true <;> by_cases b : t0.improper = true <;> simp only [a, b, if_true, Bool.false_eq_true, if_false] at h h0
    · have := HasOrder.unique h.2 h0.2
      cases t <;> cases t0 <;> simp_all [RotationType.fold, RotationType.improper]
    · omega
    · omega
    · have := HasOrder.unique h.2 h0.2
      cases t <;> cases t0 <;> simp_all [RotationType.fold, RotationType.improper]
  · intro h
    rw [← Option.some.inj h]; exact h0

theorem countType_eq (t : RotationType) (L : List M4) : countType t L = L.countP fun m => typeB t m.rot := by
  induction L with
  | nil => rfl
  | cons m L ih =>
    rw [List.countP_cons, ← ih]
    change (bif typeB t m.rot then Nat.succ (countType t L) else countType t L) = _
    cases typeB t m.rot <;> simp

theorem count_kind {n : HallSymbolNotation} {L : List M4} (h : Described n L) (hf : ∀ r ∈ PointGroup n, r.FiniteOrder)
    (t : RotationType) : {r ∈ PointGroup n | r.IsKind t}.ncard = countType t L := by
  have hs : {r ∈ PointGroup n | r.IsKind t} = (((L.map M4.rot).filter (typeB t)).toFinset : Set M3) := by
    ext r
    simp only [Set.mem_ofPred_eq, List.coe_toFinset, List.mem_filter]
    constructor
    · rintro ⟨h1, h2⟩
      have hr := h1
      rw [h.pointGroup] at h1
      exact ⟨List.mem_map.2 h1, typeB_iff.2 ((isKind_iff (hf r hr) t).1 h2)⟩
    · rintro ⟨h1, h2⟩
      have hr : r ∈ PointGroup n := by rw [h.pointGroup]; exact List.mem_map.1 h1
      exact ⟨hr, (isKind_iff (hf r hr) t).2 (typeB_iff.1 h2)⟩
  rw [hs, Set.ncard_coe_finset, List.toFinset_card_of_nodup (h.rots.filter _), countType_eq, List.filter_map,
    List.length_map, List.countP_eq_length_filter]
  rfl

/-! ## Rotations of a notation that fits -/

/-- All rotations fit the cell of the first symbol. -/
theorem pointGroup_fits {n : HallSymbolNotation} (h1 : n.matrixSymbols ≠ [])
    (h2 : ∀ s ∈ n.matrixSymbols, ∀ m, s.seitzMatrix = some m → FitsFirstSymbol n m.rot) :
    ∀ r ∈ PointGroup n, FitsFirstSymbol n r := by
  obtain ⟨order, ho⟩ := matriceOrder_ok h1
  obtain ⟨L, _, hfit, hfin, hinv⟩ := order_rots ho
  intro r hr
  exact (hfit r).1 (pointGroup_subset hfin (fun _ => hinv) (fun s hs g hg => (hfit _).2 (h2 s hs g hg)) hr)

theorem fits_holohedry {n : HallSymbolNotation} {r : M3} (h : FitsFirstSymbol n r) : r ∈ cubicList ∨ r ∈ hexList := by
  unfold FitsFirstSymbol at h
  split at h
  · exact h.elim
  · split at h
    · exact .inr ((hexagonal_iff_mem r).1 h)
    · exact .inl ((cubic_iff_mem r).1 h.1)
    · exact .inr ((hexagonal_iff_mem r).1 h)
    · exact .inl ((cubic_iff_mem r).1 h)

theorem fits_finiteOrder {n : HallSymbolNotation} {r : M3} (h : FitsFirstSymbol n r) : r.FiniteOrder := by
  have k1 : ∀ r ∈ cubicList, r.pow 12 = M3.one := by decide +kernel
  have k2 : ∀ r ∈ hexList, r.pow 12 = M3.one := by decide +kernel
  rcases fits_holohedry h with h | h
  · exact ⟨12, by decide, k1 r h⟩
  · exact ⟨12, by decide, k2 r h⟩

/-- `eigenvector` succeeds except on the four listed rotations. -/
theorem fits_eigenvector {n : HallSymbolNotation} {r : M3} (h : FitsFirstSymbol n r) (t b : V3) (w : Int) :
    (∃ v, M4.eigenvector ⟨r, t, b, w⟩ = .ok v) ↔ r ∉ badAxes := by
  have k1 : ∀ r ∈ cubicList, (∃ v, M4.eigenvector ⟨r, V3.zero, V3.zero, 1⟩ = .ok v) ↔ r ∉ badAxes := by decide +kernel
  have k2 : ∀ r ∈ hexList, (∃ v, M4.eigenvector ⟨r, V3.zero, V3.zero, 1⟩ = .ok v) ↔ r ∉ badAxes := by decide +kernel
  rcases fits_holohedry h with h | h
  · exact k1 r h
  · exact k2 r h

theorem fits_small {n : HallSymbolNotation} {r : M3} (h : FitsFirstSymbol n r) : r.Small := by
  have k1 : ∀ r ∈ cubicList, r.Small := fun r h => holohedry_small r (.inl ((cubic_iff_mem r).2 h))
  have k2 : ∀ r ∈ hexList, r.Small := fun r h => holohedry_small r (.inr ((hexagonal_iff_mem r).2 h))
  rcases fits_holohedry h with h | h
  · exact k1 r h
  · exact k2 r h

/-! ## Rows -/

/-- The facts a successful row check establishes. -/
structure RowFacts (row : Row) (n n' : HallSymbolNotation) (L : List M4) (cc : ClassCounts) : Prop where
  parsed : parseHallSymbol row.hall.toList = some (n, [])
  parsedRef : parseHallSymbol row.ref.toList = some (n', [])
  cls : crystalClass row.num = some cc
  described : Described n L
  positions : ∃ g, HasPositions n g
  fits : ∀ r ∈ PointGroup n, FitsFirstSymbol n r
  key : groupKey functionals n L = row.key
  kinds : ∀ t, {r ∈ PointGroup n | r.IsKind t}.ncard = cc.get t
  order : (PointGroup n).ncard = cc.order
  shown : row.shown = true ↔ ∀ r ∈ PointGroup n, r ∉ badAxes
  same : SameType n' n

theorem described_certList {n : HallSymbolNotation} {ms : List M4} (hms : n.seitzMatrices = some ms)
    (h : checkCert n ms (certList n ms) = true) : Described n (certList n ms) :=
  ⟨⟨ms, hms, checkCert_sound h⟩, certList_inGroup hms⟩

theorem rowCheck_sound {row : Row} (h : rowCheck functionals row = true) : ∃ n n' L cc, RowFacts row n n' L cc := by
  unfold rowCheck at h
  split at h
  · rename_i n n' cc hp hp' hcc
    split at h
    · rename_i ms ms' hms hms'
      simp only [rowCheck2, Bool.and_eq_true, List.all_eq_true, Nat.ble_eq, Nat.beq_eq, beq_iff_eq] at h
      obtain ⟨⟨⟨⟨⟨⟨⟨⟨⟨⟨hcert, hemp⟩, hfit⟩, hbytes⟩, hkey⟩, hcounts⟩, hlen⟩, hshown⟩, hinv⟩, hmv⟩, hmv'⟩ := h
      have hd := described_certList hms hcert
      have hne : n.matrixSymbols ≠ [] := by
        intro e; rw [e] at hemp; cases hemp
      have hfit' : ∀ s ∈ n.matrixSymbols, ∀ m, s.seitzMatrix = some m → FitsFirstSymbol n m.rot := by
        intro s hs m hm
        obtain ⟨m', hm', e⟩ := (seitzMatrices_mem hms).2 s hs
        rw [hm] at e
        obtain rfl := Option.some.inj e
        exact fitsB_iff (hfit m hm')
      have hsome : ∀ s ∈ n.matrixSymbols, ∃ m, s.seitzMatrix = some m ∧ FitsFirstSymbol n m.rot := by
        intro s hs
        obtain ⟨m', hm', e⟩ := (seitzMatrices_mem hms).2 s hs
        exact ⟨m', e, hfit' s hs m' e⟩
      have hpg := pointGroup_fits hne hfit'
      refine ⟨n, n', certList n ms, cc, ?_⟩
      refine ⟨hp, hp', hcc, hd, (positions_exist_iff n).2 ⟨hne, hsome, hbytes⟩, hpg, hkey, ?_, ?_, ?_, ?_⟩
      · intro t
        rw [count_kind hd (fun r hr => fits_finiteOrder (hpg r hr))]
        exact hcounts t (by cases t <;> decide)
      · rw [hd.card.2, hlen]
      · rw [← hshown, hd.pointGroup]
        simp only [List.all_eq_true, Bool.not_eq_true', List.any_eq_false, M3.eqB_iff]
        constructor
        · rintro h _ ⟨m, hm, rfl⟩ hb
          exact h m hm _ hb rfl
        · intro h m hm b hb e
          exact h m.rot ⟨m, hm, rfl⟩ (e ▸ hb)
      · exact sameType_of_moves hms' hms (certList_inGroup hms') (certList_inGroup hms) hinv hmv hmv'
    · cases h
  · cases h

theorem row_facts {row : Row} (h : row ∈ allRows) : ∃ n n' L cc, RowFacts row n n' L cc :=
  rowCheck_sound (List.all_eq_true.1 allRows_ok row h)

theorem pair_facts {p : Pair} (h : p ∈ tablePairs ∨ p ∈ otherPairs) : ∃ n n', parseHallSymbol p.a.toList = some (n, []) ∧
    parseHallSymbol p.b.toList = some (n', []) ∧ SameUpToOrigin n n' ∧
    (p.c.q = V3.zero → ∀ f, SpaceGroup n f ↔ SpaceGroup n' f) := by
  have h : pairCheck p = true := h.elim (List.all_eq_true.1 tablePairs_ok p) (List.all_eq_true.1 otherPairs_ok p)
  unfold pairCheck at h
  split at h
  · rename_i n n' hp hp'
    split at h
    · rename_i ms ms' hms hms'
      simp only [Bool.and_eq_true, M3.eqB_iff] at h
      obtain ⟨⟨⟨h1, h2⟩, h3⟩, h4⟩ := h
      refine ⟨n, n', hp, hp', sameUpToOrigin_of_moves h1 hms hms' (certList_inGroup hms) (certList_inGroup hms') h2 h3 h4, ?_⟩
      intro hq f
      refine moves_iff hms hms' (certList_inGroup hms) (certList_inGroup hms') h2 h3 h4 ?_
      have hd : (p.c.d : ℚ) ≠ 0 := by
        simp only [inverseCheck, Bool.and_eq_true, Nat.blt_eq] at h2
        exact_mod_cast h2.1.1.1.1.1.1.ne'
      have : p.c.map = id := by
        funext x
        simp only [Move.map, changeOfBasis, h1, M3.map, M3.one, hq, V3.zero]
        ext <;> simp only [id] <;> push_cast <;> field_simp <;> ring
      rw [this]; rfl
    · cases h
  · cases h

end Verif
