import Verif.Proofs.Success
import Verif.Spec.Reference
import Verif.Props.Generation

/-! # When `general_positions` succeeds (C38, C57) -/

namespace Verif

open HallSymbolNotation

theorem maxEquivPos_fold {l : List MatrixSymbol} {ms : List M4} (h : l.mapM MatrixSymbol.seitzMatrix = some ms) (acc : Nat) :
    ms.foldlM (m := Except Panic) (fun acc m => do let k ← m.equivNum; pure (acc * k)) acc
      = .ok (acc * (l.map fun s => s.nfoldBody.number).prod) := by
  induction l generalizing ms acc with
  | nil => simp at h; subst h; simp [pure, Except.pure]
  | cons s l ih =>
    rw [List.mapM_cons] at h
    cases hs : s.seitzMatrix with
    | none => rw [hs] at h; simp at h
    | some m =>
      rw [hs] at h
      cases hl : l.mapM MatrixSymbol.seitzMatrix with
      | none => rw [hl] at h; simp at h
      | some ms' =>
        rw [hl] at h
        simp at h
        subst h
        rw [List.foldlM_cons, seitz_equivNum hs]
        change List.foldlM _ (acc * _) ms' = _
        rw [ih hl, List.map_cons, List.prod_cons, Nat.mul_assoc]

theorem lattice_equivNum (l : LatticeSymbol) :
    l.equivNum = l.translations.length * (if l.minusSign then 2 else 1) := by
  obtain ⟨b, c⟩ := l
  cases b <;> cases c <;> rfl

theorem maxEquivPos_iff {n : HallSymbolNotation} {ms : List M4} (h : n.seitzMatrices = some ms) :
    (∃ k, n.maxEquivPos ms = .ok k) ↔ bytesRequested n ≤ maxBytes := by
  unfold maxEquivPos bytesRequested
  rw [maxEquivPos_fold h, lattice_equivNum]
  generalize n.latticeSymbol.translations.length * (if n.latticeSymbol.minusSign then 2 else 1)
    * (n.matrixSymbols.map fun s => s.nfoldBody.number).prod = r
  change (∃ k, (if r * 64 > maxBytes then Except.error Panic.capacityOverflow else Except.ok r) = Except.ok k) ↔ _
  split
  · rename_i hgt
    constructor
    · rintro ⟨_, h⟩; cases h
    · intro h; omega
  · rename_i hgt
    constructor
    · intro _; omega
    · intro _; exact ⟨_, rfl⟩

/-- The reference order and the rotations it lists. -/
theorem order_rots {n : HallSymbolNotation} {order : List String} (h : n.matriceOrder = .ok order) :
    ∃ L : List M3, (∀ m : M4, (∃ k, sortKey order m = .ok k) ↔ m.rot ∈ L) ∧ (∀ r, r ∈ L ↔ FitsFirstSymbol n r) ∧
      FiniteRotations {r | r ∈ L} ∧ M4.inversion.rot ∈ L := by
  have hc : ∃ L : List M3, (∀ m : M4, (∃ k, sortKey Data.order48 m = .ok k) ↔ m.rot ∈ L) ∧ (∀ r, r ∈ L ↔ r.Cubic) ∧
      FiniteRotations {r | r ∈ L} ∧ M4.inversion.rot ∈ L := by
    refine ⟨cubicList, orderCheck_sound order48_check, fun r => (cubic_iff_mem r).symm, ⟨List.finite_toSet _, ?_, ?_⟩, ?_⟩
    · change M3.one ∈ cubicList; decide +kernel
    · intro a ha b hb
      exact (cubic_iff_mem _).1 (((cubic_iff_mem a).2 ha).mul ((cubic_iff_mem b).2 hb))
    · decide +kernel
  have hh : ∃ L : List M3, (∀ m : M4, (∃ k, sortKey Data.order24 m = .ok k) ↔ m.rot ∈ L) ∧ (∀ r, r ∈ L ↔ r.Hexagonal) ∧
      FiniteRotations {r | r ∈ L} ∧ M4.inversion.rot ∈ L := by
    refine ⟨hexList, orderCheck_sound order24_check, fun r => (hexagonal_iff_mem r).symm, ⟨List.finite_toSet _, ?_, ?_⟩, ?_⟩
    · change M3.one ∈ hexList; decide +kernel
    · intro a ha b hb
      exact (hexagonal_iff_mem _).1 (((hexagonal_iff_mem a).2 ha).mul ((hexagonal_iff_mem b).2 hb))
    · decide +kernel
  have hr : ∃ L : List M3, (∀ m : M4, (∃ k, sortKey Data.order12 m = .ok k) ↔ m.rot ∈ L) ∧ (∀ r, r ∈ L ↔ r.Rhombohedral) ∧
      FiniteRotations {r | r ∈ L} ∧ M4.inversion.rot ∈ L := by
    refine ⟨rhombList, orderCheck_sound order12_check, ?_, ⟨List.finite_toSet _, ?_, ?_⟩, ?_⟩
    · intro r
      simp only [rhombList, List.mem_filter, ← cubic_iff_mem, decide_eq_true_eq]
      rfl
    · change M3.one ∈ rhombList; decide +kernel
    · have key : ∀ a ∈ rhombList, ∀ b ∈ rhombList, a.mul b ∈ rhombList := by decide +kernel
      exact key
    · decide +kernel
  unfold matriceOrder at h
  unfold FitsFirstSymbol
  cases hm : n.matrixSymbols with
  | nil => rw [hm] at h; cases h
  | cons m ms =>
    rw [hm] at h
    simp only [] at h ⊢
    cases hb : m.nfoldBody <;> cases hd : m.nfoldDiag <;> rw [hb, hd] at h <;> cases h <;>
      first | exact hc | exact hh | exact hr

theorem matriceOrder_ok {n : HallSymbolNotation} (h : n.matrixSymbols ≠ []) : ∃ order, n.matriceOrder = .ok order := by
  unfold matriceOrder
  cases hm : n.matrixSymbols with
  | nil => exact absurd hm h
  | cons m ms =>
    cases hb : m.nfoldBody <;> cases hd : m.nfoldDiag <;> simp only [hb, hd] <;> exact ⟨_, rfl⟩

theorem seitzMatrices_of {n : HallSymbolNotation} (h : ∀ s ∈ n.matrixSymbols, ∃ m, s.seitzMatrix = some m) :
    ∃ ms, n.seitzMatrices = some ms := by
  unfold seitzMatrices
  generalize n.matrixSymbols = l at h
  induction l with
  | nil => exact ⟨[], rfl⟩
  | cons s l ih =>
    obtain ⟨m, hm⟩ := h s (List.mem_cons_self ..)
    obtain ⟨ms, hms⟩ := ih (fun s' h' => h s' (List.mem_cons_of_mem _ h'))
    exact ⟨m :: ms, by rw [List.mapM_cons, hm, hms]; rfl⟩

/-- C57. `general_positions` returns positions exactly when the notation has a matrix symbol, every matrix symbol denotes
an operation, all their rotations are symmetries of the cell selected by the first symbol, and the requested capacity is
within the limit of the platform. In all other cases it panics or does not stop. -/
theorem positions_exist_iff (n : HallSymbolNotation) :
    (∃ g, HasPositions n g) ↔ n.matrixSymbols ≠ [] ∧
      (∀ s ∈ n.matrixSymbols, ∃ m, s.seitzMatrix = some m ∧ FitsFirstSymbol n m.rot) ∧
      bytesRequested n ≤ maxBytes := by
  constructor
  · rintro ⟨g, k, h⟩
    obtain ⟨ms, st, cap, a1, a2, a3, a4, a5⟩ := generalPositions_ok h
    have hF := final_of_rounds a1 a3
    obtain ⟨order, ho, hkeys, _⟩ := sort_sorted a4
    obtain ⟨L, hL, hfit, hfin, _⟩ := order_rots ho
    refine ⟨?_, ?_, (maxEquivPos_iff a1).1 ⟨_, a2⟩⟩
    · intro e
      unfold matriceOrder at ho
      rw [e] at ho; cases ho
    · intro s hs
      obtain ⟨m, hm, e, he, her⟩ := hF.gens s hs
      refine ⟨m, hm, ?_⟩
      rw [← hfit, ← her]
      by_cases h2 : 2 ≤ st.list.length
      · exact (hL e).1 (hkeys h2 e ((sort_perm a4).mem_iff.2 he))
      · have hid := hF.identity_mem
        match hst : st.list, h2 with
        | [], _ => rw [hst] at he; simp at he
        | [x], _ =>
          rw [hst] at he hid
          rw [List.mem_singleton.1 he, ← List.mem_singleton.1 hid]
          exact hfin.one
        | _ :: _ :: _, h2 => simp only [List.length_cons] at h2; omega
  · rintro ⟨h1, h2, h3⟩
    obtain ⟨ms, hms⟩ := seitzMatrices_of (fun s hs => (h2 s hs).imp fun _ h => h.1)
    obtain ⟨cap, hcap⟩ := (maxEquivPos_iff hms).2 h3
    obtain ⟨order, ho⟩ := matriceOrder_ok h1
    obtain ⟨L, hL, hfit, hfin, hinv⟩ := order_rots ho
    have hsub : PointGroup n ⊆ {r | r ∈ L} := by
      apply pointGroup_subset hfin (fun _ => hinv)
      intro s hs g hg
      obtain ⟨m, hm, hf⟩ := h2 s hs
      rw [hg] at hm
      obtain rfl := Option.some.inj hm
      exact (hfit _).2 hf
    obtain ⟨fuel, st, hst⟩ := rounds_of_finite hms (hfin.finite.subset hsub)
    have hF := final_of_rounds hms hst
    obtain ⟨r, hr⟩ := sort_succeeds (l := st.list) ho (fun m hm => (hL m).2
      (hsub (by rw [hF.pointGroup]; exact ⟨m, hm, rfl⟩)))
    exact ⟨_, fuel, generalPositions_of hms hcap hst hr⟩

example : sampleN.matrixSymbols ≠ [] ∧ bytesRequested sampleN = 1024 ∧
    ∀ s ∈ sampleN.matrixSymbols, ∃ m, s.seitzMatrix = some m ∧ FitsFirstSymbol sampleN m.rot :=
  ⟨by decide +kernel, by decide +kernel, ((positions_exist_iff _).1 ⟨_, sample_positions⟩).2.1⟩

/-- C38, the part that holds: under the conditions of C57 no number of rounds ends in a panic. The rest of C38 is refuted
below. -/
theorem no_panic_partial {n : HallSymbolNotation} (h1 : n.matrixSymbols ≠ []) (h2 : ∀ s ∈ n.matrixSymbols, ∃ m, s.seitzMatrix = some m ∧ FitsFirstSymbol n m.rot)
    (h3 : bytesRequested n ≤ maxBytes) (rounds : Nat) (e : Panic) : n.generalPositions rounds ≠ some (.error e) := by
  obtain ⟨g, k, hk⟩ := (positions_exist_iff n).2 ⟨h1, h2, h3⟩
  intro he
  obtain ⟨ms, st, cap, a1, a2, a3, a4, a5⟩ := generalPositions_ok hk
  unfold HallSymbolNotation.generalPositions HallSymbolNotation.generatePositions at he
  rw [a1] at he
  simp only [a2] at he
  cases hr : n.latticeSymbol.rounds rounds (n.startState ms) with
  | none => rw [hr] at he; cases he
  | some st' =>
    have : st' = st := by
      have b1 := rounds_mono (le_max_left rounds k) hr
      have b2 := rounds_mono (le_max_right rounds k) a3
      rw [b1] at b2
      exact Option.some.inj b2
    subst this
    rw [hr] at he
    simp only [a4] at he
    cases he

/-- C38 is false: each of these texts is accepted by `try_from_str`, and `general_positions` panics on it after at most
three rounds: no matrix symbol; a rotation outside the cell of the first symbol (twice: the 3-fold of `P 2 3`, the axis of
`P 6x`); an undefined diagonal; a screw that is not accepted (twice); and twenty-four 6-folds ask for more memory than can
be addressed. -/
theorem parsed_symbols_panic :
    (∀ s ∈ ["P", "P 2 3", "P 6x", "P 1 2'", "P 42", "P 63",
        "P 6 6 6 6 6 6 6 6 6 6 6 6 6 6 6 6 6 6 6 6 6 6 6 6"],
      ∃ n e, HallSymbolNotation.tryFromStr s.toList = some n ∧ n.generalPositions 30 = some (.error e)) := by
  intro s hs
  have key : ∀ s ∈ ["P", "P 2 3", "P 6x", "P 1 2'", "P 42", "P 63",
        "P 6 6 6 6 6 6 6 6 6 6 6 6 6 6 6 6 6 6 6 6 6 6 6 6"],
      (match HallSymbolNotation.tryFromStr s.toList with
       | none => false
       | some n => match n.generalPositions 30 with
         | some (.error _) => true
         | _ => false) = true := by decide +kernel
  have := key s hs
  cases h : HallSymbolNotation.tryFromStr s.toList with
  | none => rw [h] at this; cases this
  | some n =>
    rw [h] at this
    simp only [] at this
    cases hg : n.generalPositions 30 with
    | none => rw [hg] at this; cases this
    | some r =>
      rw [hg] at this
      cases r with
      | ok g => cases this
      | error e => exact ⟨n, e, rfl, hg⟩

end Verif
