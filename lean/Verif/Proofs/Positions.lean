import Verif.Proofs.Final
import Verif.Proofs.Sort

/-! # Taking `general_positions` apart -/

namespace Verif

theorem generalPositions_ok {n : HallSymbolNotation} {fuel : Nat} {g : GeneralPositions}
    (h : n.generalPositions fuel = some (.ok g)) :
    ∃ ms st k, n.seitzMatrices = some ms ∧ n.maxEquivPos ms = .ok k ∧
      n.latticeSymbol.rounds fuel (n.startState ms) = some st ∧
      n.sortGeneralPositions st.list = .ok g.corePositionSet ∧ g.latticeTranslations = n.latticeSymbol.translations := by
  unfold HallSymbolNotation.generalPositions HallSymbolNotation.generatePositions at h
  cases hms : n.seitzMatrices with
  | none => rw [hms] at h; cases h
  | some ms =>
    rw [hms] at h
    simp only [] at h
    cases hk : n.maxEquivPos ms with
    | error e => rw [hk] at h; cases h
    | ok k =>
      rw [hk] at h
      simp only [] at h
      cases hr : n.latticeSymbol.rounds fuel (n.startState ms) with
      | none => rw [hr] at h; cases h
      | some st =>
        rw [hr] at h
        simp only [Option.map_some, Option.some.injEq] at h
        cases hs : n.sortGeneralPositions st.list with
        | error e => rw [hs] at h; cases h
        | ok l =>
          rw [hs] at h
          cases h
          exact ⟨ms, st, k, rfl, hk, hr, hs, rfl⟩

theorem generalPositions_of {n : HallSymbolNotation} {fuel k : Nat} {ms r : List M4} {st : GenState}
    (hms : n.seitzMatrices = some ms) (hk : n.maxEquivPos ms = .ok k)
    (hr : n.latticeSymbol.rounds fuel (n.startState ms) = some st) (hs : n.sortGeneralPositions st.list = .ok r) :
    n.generalPositions fuel = some (.ok ⟨n.latticeSymbol.translations, r⟩) := by
  unfold HallSymbolNotation.generalPositions HallSymbolNotation.generatePositions
  rw [hms]
  simp only [hk, hr, hs]
  rfl

/-- The final state and the core positions have the same elements. -/
theorem final_of_ok {n : HallSymbolNotation} {fuel : Nat} {g : GeneralPositions}
    (h : n.generalPositions fuel = some (.ok g)) :
    ∃ st, Final n st ∧ g.corePositionSet.Perm st.list ∧ g.latticeTranslations = n.latticeSymbol.translations := by
  obtain ⟨ms, st, k, h1, _, h3, h4, h5⟩ := generalPositions_ok h
  exact ⟨st, final_of_rounds h1 h3, HallSymbolNotation.sort_perm h4, h5⟩

/-- The members of the full sets. -/
theorem mem_full {g : GeneralPositions} {m : M4} :
    (∃ set ∈ g.deriveFullSets, m ∈ set) ↔ ∃ v ∈ g.latticeTranslations, ∃ c ∈ g.corePositionSet, m = c.addV v := by
  unfold GeneralPositions.deriveFullSets
  constructor
  · rintro ⟨set, hset, hm⟩
    obtain ⟨v, hv, rfl⟩ := List.mem_map.1 hset
    obtain ⟨c, hc, rfl⟩ := List.mem_map.1 hm
    exact ⟨v, hv, c, hc, rfl⟩
  · rintro ⟨v, hv, c, hc, rfl⟩
    exact ⟨_, List.mem_map.2 ⟨v, hv, rfl⟩, List.mem_map.2 ⟨c, hc, rfl⟩⟩

theorem Lattices.nodup_cong (l : Lattices) :
    l.translations.Pairwise (fun a b => ¬ V3.Cong a b) := by cases l <;> decide +kernel

/-- The first element of the sorted list. -/
theorem sort_head {n : HallSymbolNotation} {a : M4} {l r : List M4} (h : n.sortGeneralPositions (a :: l) = .ok r)
    (ha : ∀ order, n.matriceOrder = .ok order → HallSymbolNotation.sortKey order a = .ok 0) : r.head? = some a := by
  obtain ⟨order, ho, ⟨hlt, rfl⟩ | ⟨hge, keyed, h1, h2, rfl⟩⟩ := HallSymbolNotation.sort_ok h
  · rfl
  · match keyed, h1 with
    | p :: keyed', h1 =>
      simp only [List.map_cons, List.cons.injEq] at h1
      obtain ⟨rfl, h1⟩ := h1
      have hp := h2 p (List.mem_cons_self ..)
      rw [ha order ho] at hp
      have hp0 : p.1 = 0 := (Except.ok.inj hp).symm
      unfold HallSymbolNotation.sortByKey
      cases hs : HallSymbolNotation.sortByKey keyed' with
      | nil => rfl
      | cons y ys =>
        unfold HallSymbolNotation.insertByKey
        rw [if_pos (by omega)]
        rfl

end Verif
