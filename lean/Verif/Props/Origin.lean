import Verif.Props.Shift
import Verif.Props.Canonical

/-! # Equivalent origin shifts (C107) -/

namespace Verif

/-- Moving the origin by `d/12` changes the operation `m` by a lattice translation: `d/12` minus its image under the
rotation part of `m` is one. -/
def ShiftKeeps (l : LatticeSymbol) (d : V3) (m : M4) : Prop :=
  IsLatticeTranslation l (fun p => p.addTwelfths (d.sub (m.rot.mulVec d)))

/-- Moving an operation by `d/12` is following it by the translation `d/12` minus its image. -/
theorem moveOrigin_act (d : V3) (m : M4) :
    moveOrigin d m.act = (fun p => p.addTwelfths (d.sub (m.rot.mulVec d))) ∘ m.act := by
  funext p
  ext <;> simp only [moveOrigin, Function.comp, M4.act, Pt.subTwelfths, Pt.addTwelfths, V3.sub, M3.mulVec, Int.cast_add,
    Int.cast_sub, Int.cast_mul] <;> ring

/-- The same for an operation already seen from a moved origin. -/
theorem shifted_again (v d : V3) (m : M4) :
    (fun p : Pt => (m.act (p.subTwelfths (v.add d))).addTwelfths (v.add d)) =
      (fun p => p.addTwelfths (d.sub (m.rot.mulVec d))) ∘ (fun p => (m.act (p.subTwelfths v)).addTwelfths v) := by
  funext p
  ext <;> simp only [Function.comp, M4.act, Pt.subTwelfths, Pt.addTwelfths, V3.sub, V3.add, M3.mulVec, Int.cast_add,
    Int.cast_sub, Int.cast_mul] <;> ring

theorem ShiftKeeps.neg {l : LatticeSymbol} {d : V3} {m : M4} (h : ShiftKeeps l d m) : ShiftKeeps l d.neg m := by
  unfold ShiftKeeps at *
  have e : d.neg.sub (m.rot.mulVec d.neg) = (d.sub (m.rot.mulVec d)).neg := by
    ext <;> simp only [V3.sub, V3.neg, M3.mulVec] <;> ring
  rw [← trMat_act, isLatticeTranslation_iff] at h ⊢
  rw [e]
  obtain ⟨a, ha, h1⟩ := h
  obtain ⟨c, hc, h3⟩ := l.char.neg_closed a ha
  refine ⟨c, hc, ?_⟩
  rw [V3.zero_add] at *
  exact h1.neg.trans h3

theorem group_of_kept_shift {n n' : HallSymbolNotation} (h : SameButShift n n') {d : V3}
    (hd : n'.originShift.vec = n.originShift.vec.add d)
    (hk : ∀ s ∈ n.matrixSymbols, ∀ m, s.seitzMatrix = some m → ShiftKeeps n.latticeSymbol d m) {f : Pt → Pt}
    (hf : SpaceGroup n' f) : SpaceGroup n f := by
  induction hf with
  | one => exact .one
  | cell k => exact .cell k
  | centring hv => exact .centring (h.1 ▸ hv)
  | inversion hm => exact .inversion (h.1 ▸ hm)
  | generator hs hg =>
    rw [← h.2] at hs
    rw [hd, shifted_again]
    exact (SpaceGroup.lattice (hk _ hs _ hg)).comp (.generator hs hg)
  | comp _ _ h1 h2 => exact h1.comp h2
  | inv _ h1 h2 ih => exact ih.inv h1 h2

/-- C107, sufficient for any symbol, consistent or not: if for each matrix symbol `d/12` minus its image under the rotation
is a lattice translation, moving the origin shift by `d/12` does not change the group. -/
theorem kept_shift_same_group {n n' : HallSymbolNotation} (h : SameButShift n n') {d : V3}
    (hd : n'.originShift.vec = n.originShift.vec.add d)
    (hk : ∀ s ∈ n.matrixSymbols, ∀ m, s.seitzMatrix = some m → ShiftKeeps n.latticeSymbol d m) : SameGroup n n' := by
  refine fun f => ⟨fun hf => ?_, group_of_kept_shift h hd hk⟩
  refine group_of_kept_shift (n := n') (n' := n) ⟨h.1.symm, h.2.symm⟩ (d := d.neg) ?_ ?_ hf
  · rw [hd, V3.add_assoc, V3.add_neg_self, V3.add_zero]
  · intro s hs m hm
    rw [← h.1]
    exact (hk s (h.2 ▸ hs) m hm).neg

/-- C107. For a consistent symbol this is exact: moving the origin shift by `d/12` leaves the group unchanged if and only if
for each matrix symbol `d/12` minus its image under the rotation is a lattice translation. -/
theorem same_group_iff_shift_kept {n n' : HallSymbolNotation} (h : SameButShift n n') {d : V3}
    (hd : n'.originShift.vec = n.originShift.vec.add d) (hn : Consistent n) :
    SameGroup n n' ↔ ∀ s ∈ n.matrixSymbols, ∀ m, s.seitzMatrix = some m → ShiftKeeps n.latticeSymbol d m := by
  refine ⟨fun hs s hsm m hm => ?_, kept_shift_same_group h hd⟩
  have h1 := SpaceGroup.generator hsm hm
  have h2 := (hs _).2 (SpaceGroup.generator (n := n') (h.2 ▸ hsm) hm)
  rw [hd, shifted_again] at h2
  obtain ⟨a, ha, -, hu⟩ := h1.isOp
  rw [ha] at h1 h2
  have h3 := h2.comp h1.uinv
  rw [Function.comp_assoc, M4.act_uinv hu, Function.comp_id] at h3
  exact hn _ h3 (by rw [← trMat_act]; exact isTranslation_trMat _)

/-- C107. Shifts that differ by a lattice translation are equivalent, for any symbol. -/
theorem shift_by_lattice_translation {n n' : HallSymbolNotation} (h : SameButShift n n') {d : V3}
    (hd : n'.originShift.vec = n.originShift.vec.add d)
    (ht : IsLatticeTranslation n.latticeSymbol (fun p => p.addTwelfths d)) : SameGroup n n' := by
  have ha : ShiftAllowed n.latticeSymbol d := by
    right
    rw [← trMat_act, isLatticeTranslation_iff] at ht
    have e : (fun p : Pt => (p.addTwelfths d).addTwelfths d) = (trMat (d.add d)).act := by
      rw [trMat_act]
      funext p
      ext <;> simp only [Pt.addTwelfths, V3.add, Int.cast_add] <;> ring
    rw [e, isLatticeTranslation_iff]
    obtain ⟨a, ha, h1⟩ := ht
    obtain ⟨c, hc, h3⟩ := n.latticeSymbol.char.add_closed a ha a ha
    refine ⟨c, hc, ?_⟩
    rw [V3.zero_add] at *
    exact (h1.add h1).trans h3
  have e1 : (fun p : Pt => p.addTwelfths d) ∘ (fun p : Pt => p.subTwelfths d) = id := by
    funext p; ext <;> simp [Pt.addTwelfths, Pt.subTwelfths]
  have e2 : (fun p : Pt => p.subTwelfths d) ∘ (fun p : Pt => p.addTwelfths d) = id := by
    funext p; ext <;> simp [Pt.addTwelfths, Pt.subTwelfths]
  have hm : ∀ f, SpaceGroup n f → SpaceGroup n (moveOrigin d f) := fun f hf =>
    ((SpaceGroup.lattice ht).comp hf).comp ((SpaceGroup.lattice ht).inv e1 e2)
  have hm' : ∀ f, SpaceGroup n (moveOrigin d f) → SpaceGroup n f := fun f hf => by
    have := (((SpaceGroup.lattice ht).inv e1 e2).comp hf).comp (SpaceGroup.lattice ht)
    convert this using 1
    funext p
    simp [moveOrigin, Pt.addTwelfths, Pt.subTwelfths]
  intro f
  have e : moveOrigin d (moveOrigin d.neg f) = f := by
    have := moveOrigin_neg d.neg f
    have en : d.neg.neg = d := by ext <;> simp [V3.neg]
    rwa [en] at this
  have k := shifted_group_partial h hd ha (moveOrigin d.neg f)
  rw [e] at k
  rw [k]
  constructor
  · intro hf; rw [← e] at hf; exact hm' _ hf
  · intro hf; have := hm _ hf; rwa [e] at this

/-- C107. A shift along a direction that every rotation of the symbols leaves alone is equivalent to none, for any
symbol. -/
theorem shift_along_polar_direction {n n' : HallSymbolNotation} (h : SameButShift n n') {d : V3}
    (hd : n'.originShift.vec = n.originShift.vec.add d)
    (hp : ∀ s ∈ n.matrixSymbols, ∀ m, s.seitzMatrix = some m → m.rot.mulVec d = d) : SameGroup n n' := by
  refine kept_shift_same_group h hd fun s hs m hm => ?_
  unfold ShiftKeeps
  rw [hp s hs m hm, ← trMat_act, isLatticeTranslation_iff]
  have e : d.sub d = V3.zero := by ext <;> simp [V3.sub, V3.zero]
  rw [e]
  exact .refl _ _

/-- C107, on the results: moving the origin shift of a consistent symbol by such a `d/12` gives general positions again, with
the same lattice translations and, in some order, the same full list of operations (for a primitive lattice, the same
general positions); and no other `d` does, if the moved symbol is consistent. -/
theorem equivalent_shifts_positions {n n' : HallSymbolNotation} (h : SameButShift n n') {d : V3}
    (hd : n'.originShift.vec = n.originShift.vec.add d) (hn : Consistent n) {g : GeneralPositions}
    (hg : HasPositions n g) :
    ((∀ s ∈ n.matrixSymbols, ∀ m, s.seitzMatrix = some m → ShiftKeeps n.latticeSymbol d m) →
      ∃ g', HasPositions n' g' ∧ Consistent n' ∧ g'.latticeTranslations = g.latticeTranslations ∧
        g'.deriveFullSets.flatten.Perm g.deriveFullSets.flatten ∧ (n.latticeSymbol.char = .P → g' = g)) ∧
    (Consistent n' → ∀ g', HasPositions n' g' → g'.deriveFullSets.flatten.Perm g.deriveFullSets.flatten →
      ∀ s ∈ n.matrixSymbols, ∀ m, s.seitzMatrix = some m → ShiftKeeps n.latticeSymbol d m) := by
  constructor
  · intro hk
    have hs := kept_shift_same_group h hd hk
    have hn' : Consistent n' := by
      intro f hf ht
      rw [← h.1]
      exact hn f ((hs f).2 hf) ht
    have hex : ∃ g', HasPositions n' g' := by
      have := (positions_exist_iff n).1 ⟨g, hg⟩
      rw [positions_exist_iff]
      obtain ⟨l, ms, o⟩ := n
      obtain ⟨l', ms', o'⟩ := n'
      obtain ⟨h1, h2⟩ := h
      simp only at h1 h2
      subst h1 h2
      exact this
    obtain ⟨g', hg'⟩ := hex
    obtain ⟨h1, h2⟩ := (same_group_iff_same_positions hn hn' hg hg').1 hs
    refine ⟨g', hg', hn', h1.symm, h2.symm, fun hP => ?_⟩
    refine (same_group_same_positions_partial hn hn' hg hg' hs ?_ hP).symm
    unfold referenceOrder
    rw [h.2]
  · intro hn' g' hg' hp
    rw [← same_group_iff_shift_kept h hd hn, same_group_iff_same_positions hn hn' hg hg']
    refine ⟨?_, hp.symm⟩
    obtain ⟨k, hk⟩ := hg
    obtain ⟨k', hk'⟩ := hg'
    obtain ⟨_, _, _, hl⟩ := final_of_ok hk
    obtain ⟨_, _, _, hl'⟩ := final_of_ok hk'
    rw [hl, hl', h.1]

/-- The hypotheses hold with and without the condition: along the axis of `P 2` the origin can be moved freely, across it
only by half a cell. -/
example : Consistent (hall "P 2") ∧ HasPositions (hall "P 2") (positionsOf "P 2") ∧
    SameButShift (hall "P 2") (hall "P 2 (6 0 5)") ∧ SameButShift (hall "P 2") (hall "P 2 (3 0 0)") ∧
    (hall "P 2 (6 0 5)").originShift.vec = (hall "P 2").originShift.vec.add ⟨6, 0, 5⟩ ∧
    (hall "P 2 (3 0 0)").originShift.vec = (hall "P 2").originShift.vec.add ⟨3, 0, 0⟩ ∧
    SameGroup (hall "P 2") (hall "P 2 (6 0 5)") ∧ ¬ SameGroup (hall "P 2") (hall "P 2 (3 0 0)") := by
  have hn : Consistent (hall "P 2") := consistent_by_check (by decide +kernel)
  have b1 : SameButShift (hall "P 2") (hall "P 2 (6 0 5)") := by constructor <;> decide +kernel
  have b2 : SameButShift (hall "P 2") (hall "P 2 (3 0 0)") := by constructor <;> decide +kernel
  have d1 : (hall "P 2 (6 0 5)").originShift.vec = (hall "P 2").originShift.vec.add ⟨6, 0, 5⟩ := by decide +kernel
  have d2 : (hall "P 2 (3 0 0)").originShift.vec = (hall "P 2").originShift.vec.add ⟨3, 0, 0⟩ := by decide +kernel
  have hm : (hall "P 2").matrixSymbols = [⟨false, .N2, .None, .None, .Z, none⟩] := by decide +kernel
  have hl : (hall "P 2").latticeSymbol = ⟨false, .P⟩ := by decide +kernel
  have hz : (⟨false, .N2, .None, .None, .Z, none⟩ : MatrixSymbol).seitzMatrix =
    some ⟨⟨-1, 0, 0, 0, -1, 0, 0, 0, 1⟩, ⟨0, 0, 0⟩, ⟨0, 0, 0⟩, 1⟩ := by decide +kernel
  refine ⟨hn, positionsOf_spec (by decide +kernel), b1, b2, d1, d2, ?_, ?_⟩
  · rw [same_group_iff_shift_kept b1 d1 hn, hm, hl]
    intro s hs m hsm
    rw [List.mem_singleton.1 hs, hz] at hsm
    obtain rfl := Option.some.inj hsm
    unfold ShiftKeeps
    rw [← trMat_act, isLatticeTranslation_iff]
    decide +kernel
  · rw [same_group_iff_shift_kept b2 d2 hn, hm, hl]
    intro hk
    have := hk _ (List.mem_singleton.2 rfl) _ hz
    unfold ShiftKeeps at this
    rw [← trMat_act, isLatticeTranslation_iff] at this
    revert this
    decide +kernel

/-- A shift by a centring vector is by a lattice translation. -/
example : SameGroup (hall "I 4 (1 2 3)") (hall "I 4 (7 8 9)") :=
  shift_by_lattice_translation (d := ⟨6, 6, 6⟩) (by constructor <;> decide +kernel) (by decide +kernel)
    (by rw [← trMat_act, isLatticeTranslation_iff]; decide +kernel)

end Verif
