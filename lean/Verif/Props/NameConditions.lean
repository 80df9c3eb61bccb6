import Verif.Spec.NameConditions
import Verif.Props.Conditions
import Verif.Props.Names

/-! # Reflection conditions of the symbols of a Hermann-Mauguin name (C114) -/

namespace Verif.HM

theorem readParts_dir : ∀ (ds : List V3) (ws : List (List Char)) (ps : List (V3 × Part)), readParts ds ws = some ps →
    ∀ e ∈ ps, e.1 ∈ ds
  | _, [], ps, h, e, he => by
    simp only [readParts, Option.some.injEq] at h
    subst h
    cases he
  | [], _ :: _, ps, h, _, _ => by simp [readParts] at h
  | d :: ds, w :: ws, ps, h, e, he => by
    simp only [readParts] at h
    split at h
    · rename_i qs rest h1 h2
      simp only [Option.some.injEq] at h
      subst h
      rcases List.mem_append.1 he with he | he
      · obtain ⟨p, -, rfl⟩ := List.mem_map.1 he
        exact List.mem_cons_self
      · exact List.mem_cons_of_mem _ (readParts_dir ds ws _ h2 e he)
    · cases h

theorem directions_nonzero {rh : Bool} {ws : List (List Char)} {sys : System} {ds : List V3}
    (h : directions rh ws = some (sys, ds)) : ∀ d ∈ ds, d ≠ ⟨0, 0, 0⟩ := by
  have key : ∀ d ∈ [x, y, z, xy, xyz], d ≠ ⟨0, 0, 0⟩ := by decide
  have sub : ∀ d ∈ ds, d ∈ [x, y, z, xy, xyz] := by
    unfold directions at h
    repeat' split at h
    all_goals cases h
    all_goals decide
  exact fun d hd => key d (sub d hd)

theorem readName_dir {name : List Char} {nm : Name} (h : readName name = some nm) : ∀ e ∈ nm.parts, e.1 ≠ ⟨0, 0, 0⟩ := by
  unfold readName at h
  simp only at h
  split at h
  · split at h
    · rename_i hd
      split at h
      · rename_i hp
        cases h
        exact fun e he => directions_nonzero hd _ (readParts_dir _ _ _ hp e he)
      · cases h
    · cases h
  · cases h

theorem kept_of_dots {r : M3} {h : V3} (k : ∀ e, V3.dot h (r.mulVec e) = V3.dot h e) : r.vecMul h = h := by
  have k1 := k ⟨1, 0, 0⟩
  have k2 := k ⟨0, 1, 0⟩
  have k3 := k ⟨0, 0, 1⟩
  simp only [V3.dot, M3.mulVec, mul_zero, mul_one, add_zero, zero_add] at k1 k2 k3
  apply V3.ext <;> simp only [M3.vecMul] <;> linarith

/-- A rotation about `d` that keeps the metric keeps the reflections along `d`. -/
theorem along_kept {sys : System} {r : M3} {d h : V3} (hk : sys.Keeps r) (hd : r.mulVec d = d) (ha : AlongAxis sys d h) :
    r.vecMul h = h := by
  refine kept_of_dots fun e => ?_
  have e0 := ha ⟨(r.mulVec e).x - e.x, (r.mulVec e).y - e.y, (r.mulVec e).z - e.z⟩ (by
    intro g hg
    have hg := hk g hg
    have key : ∀ (r g : M3) (d e : V3), V3.dot (g.mulVec (r.mulVec d)) (r.mulVec e) =
        V3.dot (((r.transpose.mul g).mul r).mulVec d) e := by
      intro r g d e
      simp only [V3.dot, M3.mulVec, M3.mul, M3.transpose]
      ring
    have := key r g.transpose d e
    have k2 := key r g d e
    rw [hg, hd] at k2
    simp only [V3.dot] at k2 ⊢
    linarith)
  simp only [V3.dot] at e0 ⊢
  linarith

/-- The two-by-two minors of `1 - r` vanish. -/
def flatB (r : M3) : Bool :=
  let a := M3.mk (1 - r.m11) (-r.m12) (-r.m13) (-r.m21) (1 - r.m22) (-r.m23) (-r.m31) (-r.m32) (1 - r.m33)
  decide (a.m11 * a.m22 = a.m12 * a.m21) && decide (a.m11 * a.m23 = a.m13 * a.m21) && decide (a.m12 * a.m23 = a.m13 * a.m22) &&
  decide (a.m11 * a.m32 = a.m12 * a.m31) && decide (a.m11 * a.m33 = a.m13 * a.m31) && decide (a.m12 * a.m33 = a.m13 * a.m32) &&
  decide (a.m21 * a.m32 = a.m22 * a.m31) && decide (a.m21 * a.m33 = a.m23 * a.m31) && decide (a.m22 * a.m33 = a.m23 * a.m32)

theorem mirror_flat {r : M3} (h : r.Cubic ∨ r.Hexagonal) (hdet : r.neg.det = 1) (h2 : r.neg.mul r.neg = M3.one)
    (h1 : r.neg ≠ M3.one) : flatB r = true := by
  rcases h with h | h
  · exact (show ∀ r ∈ cubicList, r.neg.det = 1 → r.neg.mul r.neg = M3.one → r.neg ≠ M3.one → flatB r = true by decide +kernel)
      r ((cubic_iff_mem r).1 h) hdet h2 h1
  · exact (show ∀ r ∈ hexList, r.neg.det = 1 → r.neg.mul r.neg = M3.one → r.neg ≠ M3.one → flatB r = true by decide +kernel)
      r ((hexagonal_iff_mem r).1 h) hdet h2 h1

theorem flat_rows (A : Fin 3 → Fin 3 → ℤ) (flat : ∀ i j m k, A i j * A m k = A i k * A m j) (d h : Fin 3 → ℤ)
    (hd : ∀ i, ∑ k, A i k * d k = 2 * d i) (hz : ∑ i, h i * d i = 0) (j m : Fin 3) : (∑ i, h i * A i j) * d m = 0 := by
  have e : (∑ i, h i * A i j) * (∑ k, A m k * d k) = A m j * ∑ i, h i * ∑ k, A i k * d k := by
    rw [Finset.sum_mul, Finset.mul_sum]
    refine Finset.sum_congr rfl fun i _ => ?_
    rw [Finset.mul_sum, Finset.mul_sum, Finset.mul_sum]
    refine Finset.sum_congr rfl fun k _ => ?_
    linear_combination (h i * d k) * flat i j m k
  simp only [hd] at e
  have e2 : ∑ i, h i * (2 * d i) = 2 * ∑ i, h i * d i := by
    rw [Finset.mul_sum]
    exact Finset.sum_congr rfl fun i _ => by ring
  rw [e2, hz] at e
  linarith

theorem zone_kept {r : M3} {d h : V3} (hf : flatB r = true) (hd : r.mulVec d = ⟨-d.x, -d.y, -d.z⟩) (h0 : d ≠ ⟨0, 0, 0⟩)
    (hz : V3.dot h d = 0) : r.vecMul h = h := by
  simp only [flatB, Bool.and_eq_true, decide_eq_true_eq] at hf
  obtain ⟨⟨⟨⟨⟨⟨⟨⟨f1, f2⟩, f3⟩, f4⟩, f5⟩, f6⟩, f7⟩, f8⟩, f9⟩ := hf
  simp only [M3.mulVec, V3.mk.injEq] at hd
  obtain ⟨d1, d2, d3⟩ := hd
  simp only [V3.dot] at hz
  have key := flat_rows
    ![![1 - r.m11, -r.m12, -r.m13], ![-r.m21, 1 - r.m22, -r.m23], ![-r.m31, -r.m32, 1 - r.m33]]
    (by intro i j m k; fin_cases i <;> fin_cases j <;> fin_cases m <;> fin_cases k <;> simp <;> linarith)
    ![d.x, d.y, d.z] ![h.x, h.y, h.z]
    (by intro i; fin_cases i <;> simp [Fin.sum_univ_succ] <;> linarith)
    (by simp [Fin.sum_univ_succ]; linarith)
  have s : ∃ m, ![d.x, d.y, d.z] m ≠ 0 := by
    by_contra hc
    push Not at hc
    exact h0 (V3.ext (hc 0) (hc 1) (hc 2))
  obtain ⟨m, hm⟩ := s
  have k1 := (mul_eq_zero.1 (key 0 m)).resolve_right hm
  have k2 := (mul_eq_zero.1 (key 1 m)).resolve_right hm
  have k3 := (mul_eq_zero.1 (key 2 m)).resolve_right hm
  simp [Fin.sum_univ_succ] at k1 k2 k3
  apply V3.ext <;> simp only [M3.vecMul] <;> linarith

/-! ## Operations -/

theorem iterate_phase {m : M4} {h : V3} (hr : m.rot.vecMul h = h) (k : Nat) (p : Pt) :
    h.phase (m.act^[k] p) = h.phase p + k * ((V3.dot h m.tr : Int) / 12 : ℚ) := by
  induction k generalizing p with
  | zero => simp
  | succ k ih =>
    rw [Function.iterate_succ_apply, ih, phase_act, hr]
    push_cast
    ring

/-- An operation that keeps the planes, and whose `k`-th power is the translation by `v/12`, forbids the reflection unless
`h·v` is a multiple of `12 k`. -/
theorem power_forbids {n : HallSymbolNotation} {m : M4} {h v : V3} {k : Nat} (hm : SpaceGroup n m.act)
    (hr : m.rot.vecMul h = h) (hp : ∀ p, m.act^[k] p = p.addTwelfths v) (hd : ¬ (12 * k : Int) ∣ V3.dot h v) : Absent n h := by
  refine ⟨_, hm, (V3.dot h m.tr : Int) / 12, ?_, fun p => by rw [phase_act, hr]⟩
  rintro j hj
  have e := iterate_phase hr k ⟨0, 0, 0⟩
  rw [hp, hj] at e
  apply hd
  refine ⟨j, ?_⟩
  simp only [V3.phase, Pt.addTwelfths, mul_zero, add_zero, zero_add] at e
  have : (V3.dot h v : ℚ) = 12 * k * j := by
    simp only [V3.dot]
    push_cast
    linarith
  exact_mod_cast this

theorem pow_two' (a : M3) : a.pow 2 = a.mul a := by
  simp only [M3.pow]
  cases a
  simp [M3.mul]

theorem turn_two {d : V3} {r : M3} (h : Turn d 2 r.neg) :
    r.neg.det = 1 ∧ r.neg.mul r.neg = M3.one ∧ r.neg ≠ M3.one ∧ r.mulVec d = ⟨-d.x, -d.y, -d.z⟩ := by
  obtain ⟨h1, ⟨-, h2, h3⟩, h4, -⟩ := h
  refine ⟨h1, by rw [← pow_two']; exact h2, ?_, ?_⟩
  · have := h3 1 (by decide) (by decide)
    intro e
    apply this
    rw [e]
    decide
  · simp only [M3.mulVec, M3.neg, V3.mk.injEq] at h4 ⊢
    cases d
    simp only [V3.mk.injEq] at h4 ⊢
    refine ⟨?_, ?_, ?_⟩ <;> linarith

/-- C114. For every text that is a Hermann-Mauguin name of a notation with positions: reflections that break the condition of
one of its symbols are forbidden. -/
theorem named_condition {name : String} {n : HallSymbolNotation} {g : GeneralPositions} (hg : HasPositions n g) {nm : Name}
    (hname : readName name.toList = some nm) (hfits : Fits nm n) (e : V3 × Part) (he : e ∈ nm.parts) (h : V3)
    (hc : ¬ e.2.Condition nm.system e.1 h) : Absent n h := by
  obtain ⟨m, hm, hl, hs⟩ := hfits.present e he
  have hrot : m.rot ∈ PointGroup n := ⟨_, hm, m, rfl, rfl⟩
  rcases hp : e.2 with ⟨N, s⟩ | N | c <;> rw [hp] at hl hs hc <;>
    simp only [Part.Condition, Part.Linear, Part.Shifts, not_true_eq_false, Classical.not_imp, not_exists, not_and] at hl hs hc
  · obtain ⟨ha, hd⟩ := hc
    refine power_forbids hm (along_kept (hfits.cell _ hrot) hl.2.2.1 ha) hs ?_
    rintro ⟨j, hj⟩
    apply hd
    refine ⟨j, ?_⟩
    simp only [V3.dot] at hj ⊢
    have : (12 : Int) * (s * (h.x * e.1.x + h.y * e.1.y + h.z * e.1.z)) = 12 * (N * j) := by linarith
    linarith
  · obtain ⟨hz, hv⟩ := hc
    obtain ⟨v, hv', hs⟩ := hs
    obtain ⟨t1, t2, t3, t4⟩ := turn_two hl
    have hsmall : m.rot.Cubic ∨ m.rot.Hexagonal := by
      have := pointGroup_fits_cell hg m.rot hrot
      unfold FitsFirstSymbol at this
      split at this
      · exact this.elim
      · split at this
        · exact .inr this
        · exact .inl this.1
        · exact .inr this
        · exact .inl this
    exact power_forbids (k := 2) hm (zone_kept (mirror_flat hsmall t1 t2 t3) t4 (readName_dir hname e he) hz) hs
      (by simpa using hv v hv')

/-! ## The tables -/

theorem table_positions {t : SpaceGroupTable} (ht : t = fullTable ∨ t = defaultTable) {i : Nat} {name hall : String}
    (hn : t.getHm i = some name) (hh : t.getHall i = some hall) {n : HallSymbolNotation}
    (hp : HallSymbolNotation.tryFromStr hall.toList = some n) : ∃ g, HasPositions n g := by
  obtain ⟨code, hc⟩ : ∃ code, t.getNumber i = some code :=
    ((index_lookups t ht).2.2 i).1.2 (((index_lookups t ht).2.2 i).2.1.1 ⟨_, hn⟩)
  have hin : InTables code hall := by
    rcases ht with rfl | rfl
    · exact .inl ⟨i, hc, hh⟩
    · exact .inr ⟨i, hc, hh⟩
  obtain ⟨row, hr, e, _⟩ := inTables_row hin
  obtain ⟨n₁, n', L, cc, hf⟩ := row_facts hr
  have h1 := hf.parsed
  rw [e] at h1
  have h2 := tryFromStr_of_parse h1
  rw [hp] at h2
  cases h2
  exact hf.positions

/-- C114, except for one row: for every row of the full table, reflections that break the condition of a symbol of the row's
Hermann-Mauguin name are forbidden by the group of the row's Hall symbol. (The exception is row 366, number 90:
`hm_90_condition`.) -/
theorem full_conditions_partial (i : Nat) (hi : i ≠ 366) (name hall : String) (hn : fullTable.getHm i = some name)
    (hh : fullTable.getHall i = some hall) :
    ∃ n nm, HallSymbolNotation.tryFromStr hall.toList = some n ∧ readName name.toList = some nm ∧
      ∀ e ∈ nm.parts, ∀ h, ¬ e.2.Condition nm.system e.1 h → Absent n h := by
  obtain ⟨n, hp, nm, hr, hf⟩ := hm_names_row_partial i hi name hall hn hh
  obtain ⟨g, hg⟩ := table_positions (.inl rfl) hn hh hp
  exact ⟨n, nm, hp, hr, fun e he h hc => named_condition hg hr hf e he h hc⟩

/-- C114 for the default table, except for the 40 rows whose name is not a name of their group (`default_hm_names_partial`). -/
theorem default_conditions_partial (i : Nat) (hi : i ∉ misnamed) (name hall : String) (hn : defaultTable.getHm i = some name)
    (hh : defaultTable.getHall i = some hall) :
    ∃ n nm, HallSymbolNotation.tryFromStr hall.toList = some n ∧ readName name.toList = some nm ∧
      ∀ e ∈ nm.parts, ∀ h, ¬ e.2.Condition nm.system e.1 h → Absent n h := by
  obtain ⟨n, hp, hiff⟩ := default_hm_names_partial i name hall hn hh
  obtain ⟨nm, hr, hf⟩ := hiff.2 hi
  obtain ⟨g, hg⟩ := table_positions (.inr rfl) hn hh hp
  exact ⟨n, nm, hp, hr, fun e he h hc => named_condition hg hr hf e he h hc⟩

/-- The exception: the name of row 366 says `42` along c, but its group does not forbid 0 0 1. -/
theorem hm_90_condition : fullTable.getHm 366 = some "P 42 1 2" ∧ fullTable.getHall 366 = some "P 4ab 2ab" ∧
    ∃ nm, readName "P 42 1 2".toList = some nm ∧ ∃ e ∈ nm.parts, ¬ e.2.Condition nm.system e.1 ⟨0, 0, 1⟩ ∧
      ¬ Absent (hall "P 4ab 2ab") ⟨0, 0, 1⟩ := by
  refine ⟨by decide +kernel, by decide +kernel, ⟨'P', .tetragonal, [(z, .axis 4 2), (xy, .axis 2 0)]⟩, by decide +kernel,
    (z, .axis 4 2), by decide, ?_, ?_⟩
  · intro hc
    have := hc (fun e he => by
      have := he ⟨0, 0, 0, 0, 0, 0, 0, 0, 1⟩ (by decide)
      simpa [V3.dot, M3.mulVec, z] using this)
    revert this
    decide
  · rw [absent_iff_listed (positionsOf_spec (s := "P 4ab 2ab") (by decide +kernel)) (consistent_by_check (s := "P 4ab 2ab") (by decide +kernel))]
    decide +kernel

/-- `P 42/n c m:2`: 0 0 1 is along `42` and breaks its condition, 1 0 0 is in the zone of `n` and breaks its
condition, 0 1 1 is in the zone of `c` and breaks its condition. -/
example : ∃ i, i ≠ 366 ∧ fullTable.getHm i = some "P 42/n c m:2" := ⟨422, by decide, by decide +kernel⟩
example : ¬ (Part.axis 4 2).Condition .tetragonal z ⟨0, 0, 1⟩ ∧ ¬ (Part.plane 'n').Condition .tetragonal z ⟨1, 0, 0⟩ ∧
    ¬ (Part.plane 'c').Condition .tetragonal x ⟨0, 1, 1⟩ ∧ (Part.plane 'm').Condition .tetragonal xy ⟨1, 1, 1⟩ := by
  refine ⟨?_, fun hc => absurd (hc rfl) (by decide), fun hc => absurd (hc rfl) (by decide), fun _ => ⟨_, List.mem_cons_self, by decide⟩⟩
  intro hc
  have := hc (fun e he => by
    have := he ⟨0, 0, 0, 0, 0, 0, 0, 0, 1⟩ (by decide)
    simpa [V3.dot, M3.mulVec, z] using this)
  revert this
  decide

end Verif.HM
