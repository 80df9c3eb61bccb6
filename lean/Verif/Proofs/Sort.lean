import Mathlib.Data.List.Perm.Basic
import Mathlib.Data.List.Lemmas
import Verif.Model.Generate

/-! # The stable sort of `sort_general_positions` -/

namespace Verif

namespace HallSymbolNotation

theorem insertByKey_perm (x : Nat × M4) (l : List (Nat × M4)) : (insertByKey x l).Perm (x :: l) := by
  induction l with
  | nil => exact List.Perm.refl _
  | cons y ys ih =>
    unfold insertByKey
    split
    · exact List.Perm.refl _
    · exact (ih.cons y).trans (List.Perm.swap ..)

theorem sortByKey_perm (l : List (Nat × M4)) : (sortByKey l).Perm l := by
  induction l with
  | nil => exact List.Perm.refl _
  | cons x xs ih => exact (insertByKey_perm x _).trans (ih.cons x)

theorem insertByKey_sorted (x : Nat × M4) {l : List (Nat × M4)} (h : l.Pairwise (fun a b => a.1 ≤ b.1)) :
    (insertByKey x l).Pairwise (fun a b => a.1 ≤ b.1) := by
  induction l with
  | nil => exact List.pairwise_singleton _ _
  | cons y ys ih =>
    unfold insertByKey
    obtain ⟨h1, h2⟩ := List.pairwise_cons.1 h
    split
    · rename_i hle
      refine List.pairwise_cons.2 ⟨?_, h⟩
      intro a ha
      rcases List.mem_cons.1 ha with rfl | ha
      · exact hle
      · exact hle.trans (h1 a ha)
    · rename_i hle
      refine List.pairwise_cons.2 ⟨?_, ih h2⟩
      intro a ha
      rcases List.mem_cons.1 ((insertByKey_perm x ys).mem_iff.1 ha) with rfl | ha
      · omega
      · exact h1 a ha

theorem sortByKey_sorted (l : List (Nat × M4)) : (sortByKey l).Pairwise (fun a b => a.1 ≤ b.1) := by
  induction l with
  | nil => exact List.Pairwise.nil
  | cons x xs ih => exact insertByKey_sorted x ih

/-- Stability: elements with equal keys keep their order. -/
theorem insertByKey_filter (x : Nat × M4) (l : List (Nat × M4)) (p : Nat × M4 → Bool)
    (hp : ∀ a ∈ l, p a = true → p x = true → a.1 = x.1) :
    (insertByKey x l).filter p = (x :: l).filter p := by
  induction l with
  | nil => rfl
  | cons y ys ih =>
    unfold insertByKey
    split
    · rfl
    · rename_i hle
      have ih' := ih (fun a ha => hp a (List.mem_cons_of_mem _ ha))
      by_cases hy : p y = true
      · by_cases hx : p x = true
        · exact absurd (hp y (List.mem_cons_self ..) hy hx) (by omega)
        · rw [List.filter_cons_of_pos hy, ih', List.filter_cons_of_neg hx, List.filter_cons_of_neg hx,
            List.filter_cons_of_pos hy]
      · rw [List.filter_cons_of_neg hy, ih']
        by_cases hx : p x = true
        · rw [List.filter_cons_of_pos hx, List.filter_cons_of_pos hx, List.filter_cons_of_neg hy]
        · rw [List.filter_cons_of_neg hx, List.filter_cons_of_neg hx, List.filter_cons_of_neg hy]

theorem sortByKey_filter (l : List (Nat × M4)) (p : Nat × M4 → Bool)
    (hp : ∀ a ∈ l, ∀ b ∈ l, p a = true → p b = true → a.1 = b.1) :
    (sortByKey l).filter p = l.filter p := by
  induction l with
  | nil => rfl
  | cons x xs ih =>
    have ih' := ih (fun a ha b hb => hp a (List.mem_cons_of_mem _ ha) b (List.mem_cons_of_mem _ hb))
    unfold sortByKey
    rw [insertByKey_filter x _ p, List.filter_cons, ih', List.filter_cons]
    intro a ha h1 h2
    exact hp a (List.mem_cons_of_mem _ ((sortByKey_perm xs).mem_iff.1 ha)) x (List.mem_cons_self ..) h1 h2

/-- The keyed list computed before sorting. -/
theorem keyed_ok {order : List String} {l : List M4} {keyed : List (Nat × M4)}
    (h : l.mapM (fun m => do let k ← sortKey order m; pure (k, m)) = Except.ok keyed) :
    keyed.map (·.2) = l ∧ ∀ p ∈ keyed, sortKey order p.2 = .ok p.1 := by
  induction l generalizing keyed with
  | nil =>
    rw [List.mapM_nil] at h
    cases h
    exact ⟨rfl, by simp⟩
  | cons m l ih =>
    rw [List.mapM_cons] at h
    cases hk : sortKey order m with
    | error e => rw [hk] at h; cases h
    | ok k =>
      rw [hk] at h
      cases hl : l.mapM (fun m => do let k ← sortKey order m; pure (k, m)) with
      | error e =>
        rw [hl] at h; cases h
      | ok ks =>
        rw [hl] at h
        cases h
        obtain ⟨i1, i2⟩ := ih hl
        refine ⟨by rw [List.map_cons, i1], ?_⟩
        intro p hp
        rcases List.mem_cons.1 hp with rfl | hp
        · exact hk
        · exact i2 p hp

theorem keyed_exists {order : List String} {l : List M4} (h : ∀ m ∈ l, ∃ k, sortKey order m = .ok k) :
    ∃ keyed, l.mapM (fun m => do let k ← sortKey order m; pure (k, m)) = Except.ok keyed := by
  induction l with
  | nil => exact ⟨[], rfl⟩
  | cons m l ih =>
    obtain ⟨k, hk⟩ := h m (List.mem_cons_self ..)
    obtain ⟨ks, hks⟩ := ih (fun m' h' => h m' (List.mem_cons_of_mem _ h'))
    refine ⟨(k, m) :: ks, ?_⟩
    rw [List.mapM_cons, hk, hks]
    rfl

/-- What a successful sort returns. -/
theorem sort_ok {n : HallSymbolNotation} {l r : List M4} (h : n.sortGeneralPositions l = .ok r) :
    ∃ order, n.matriceOrder = .ok order ∧
      ((l.length < 2 ∧ r = l) ∨
       (2 ≤ l.length ∧ ∃ keyed : List (Nat × M4), keyed.map (·.2) = l ∧ (∀ p ∈ keyed, sortKey order p.2 = .ok p.1) ∧
          r = (sortByKey keyed).map (·.2))) := by
  unfold sortGeneralPositions at h
  cases ho : n.matriceOrder with
  | error e => rw [ho] at h; cases h
  | ok order =>
    rw [ho] at h
    refine ⟨order, rfl, ?_⟩
    change (if l.length < 2 then pure l else _) = Except.ok r at h
    split at h
    · rename_i hlt
      left
      cases h
      exact ⟨hlt, rfl⟩
    · rename_i hlt
      right
      refine ⟨by omega, ?_⟩
      cases hk : l.mapM (fun m => do let k ← sortKey order m; pure (k, m)) with
      | error e => rw [hk] at h; cases h
      | ok keyed =>
        rw [hk] at h
        cases h
        obtain ⟨i1, i2⟩ := keyed_ok hk
        exact ⟨keyed, i1, i2, rfl⟩

theorem sort_succeeds {n : HallSymbolNotation} {l : List M4} {order : List String} (ho : n.matriceOrder = .ok order)
    (h : ∀ m ∈ l, ∃ k, sortKey order m = .ok k) : ∃ r, n.sortGeneralPositions l = .ok r := by
  unfold sortGeneralPositions
  rw [ho]
  change ∃ r, (if l.length < 2 then pure l else _) = Except.ok r
  split
  · exact ⟨l, rfl⟩
  · obtain ⟨ks, hks⟩ := keyed_exists h
    exact ⟨(sortByKey ks).map (·.2), by rw [hks]; rfl⟩

theorem sort_perm {n : HallSymbolNotation} {l r : List M4} (h : n.sortGeneralPositions l = .ok r) : r.Perm l := by
  obtain ⟨order, _, ⟨_, rfl⟩ | ⟨_, keyed, h1, _, rfl⟩⟩ := sort_ok h
  · exact List.Perm.refl _
  · rw [← h1]; exact (sortByKey_perm keyed).map _

theorem sort_sorted {n : HallSymbolNotation} {l r : List M4} (h : n.sortGeneralPositions l = .ok r) :
    ∃ order, n.matriceOrder = .ok order ∧ (2 ≤ l.length → ∀ m ∈ r, ∃ k, sortKey order m = .ok k) ∧
      r.Pairwise (fun a b => ∃ i j, sortKey order a = .ok i ∧ sortKey order b = .ok j ∧ i ≤ j) := by
  obtain ⟨order, ho, ⟨hlt, rfl⟩ | ⟨hge, keyed, h1, h2, rfl⟩⟩ := sort_ok h
  · refine ⟨order, ho, fun h => by omega, ?_⟩
    match r, hlt with
    | [], _ => exact List.Pairwise.nil
    | [a], _ => exact List.pairwise_singleton _ _
    | _ :: _ :: _, hlt => simp only [List.length_cons] at hlt; omega
  · refine ⟨order, ho, ?_, ?_⟩
    · intro _ m hm
      obtain ⟨p, hp, rfl⟩ := List.mem_map.1 hm
      exact ⟨p.1, h2 p ((sortByKey_perm keyed).mem_iff.1 hp)⟩
    · rw [List.pairwise_map]
      apply (sortByKey_sorted keyed).imp_of_mem
      intro a b ha hb hab
      exact ⟨a.1, b.1, h2 a ((sortByKey_perm keyed).mem_iff.1 ha), h2 b ((sortByKey_perm keyed).mem_iff.1 hb), hab⟩

theorem sort_stable {n : HallSymbolNotation} {l r : List M4} (h : n.sortGeneralPositions l = .ok r) (q : M3) :
    r.filter (fun m => decide (m.rot = q)) = l.filter (fun m => decide (m.rot = q)) := by
  obtain ⟨order, ho, ⟨hlt, rfl⟩ | ⟨hge, keyed, h1, h2, rfl⟩⟩ := sort_ok h
  · rfl
  · conv_rhs => rw [← h1]
    rw [List.filter_map, List.filter_map]
    congr 1
    apply sortByKey_filter
    intro a ha b hb pa pb
    simp only [Function.comp_apply, decide_eq_true_eq] at pa pb
    have e : sortKey order a.2 = sortKey order b.2 := by
      unfold sortKey M4.jonesRot M4.rotationTexts
      rw [pa, pb]
    rw [h2 a ha, h2 b hb] at e
    exact Except.ok.inj e

end HallSymbolNotation

end Verif
