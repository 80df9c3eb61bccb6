import Verif.Spec.Conditions
import Verif.Props.Diffraction
import Verif.Props.Classes

/-! # Reflection conditions of the lattice (C113) -/

namespace Verif

theorem latticeCondition_iff (h : V3) (l : LatticeSymbol) :
    LatticeCondition h l.char ↔ ∀ v ∈ l.translations, (12 : Int) ∣ V3.dot h v := by
  unfold LatticeSymbol.translations
  cases l.char <;>
    simp only [LatticeCondition, Lattices.translations, List.forall_mem_cons, List.not_mem_nil, false_imp_iff, implies_true,
      and_true, V3.dot, true_iff] <;> omega

/-- C113. For every notation, consistent or not: reflections that break the condition of the lattice letter are forbidden. -/
theorem broken_condition_absent (n : HallSymbolNotation) (h : V3) (hc : ¬ LatticeCondition h n.latticeSymbol.char) :
    Absent n h := by
  rw [latticeCondition_iff] at hc
  push Not at hc
  obtain ⟨v, hv, hd⟩ := hc
  exact centring_forbids hv hd

/-- C113. For every consistent notation: a general reflection is forbidden exactly when it breaks the condition of the lattice
letter. -/
theorem general_reflection_iff {n : HallSymbolNotation} (hn : Consistent n) {h : V3} (hh : GeneralReflection n h) :
    Absent n h ↔ ¬ LatticeCondition h n.latticeSymbol.char := by
  refine ⟨?_, broken_condition_absent n h⟩
  rintro ⟨f, hf, c, hc, hfc⟩ hcond
  rw [latticeCondition_iff] at hcond
  obtain ⟨v, hv, k, hk⟩ := hn f hf (hh f hf ⟨c, hfc⟩)
  obtain ⟨j, hj⟩ := hcond v hv
  apply hc (j + V3.dot h k)
  have e := hfc ⟨0, 0, 0⟩
  rw [hk] at e
  have hj' : (h.x * v.x + h.y * v.y + h.z * v.z : ℚ) = 12 * j := by
    simp only [V3.dot] at hj
    exact_mod_cast hj
  simp only [V3.phase, Pt.addTwelfths, Pt.addCell] at e
  simp only [V3.dot]
  push_cast
  linarith

theorem small_rows {r : M3} (h : r.Cubic ∨ r.Hexagonal) (e : r.vecMul ⟨1, 7, 49⟩ = ⟨1, 7, 49⟩) : r = M3.one := by
  rcases h with h | h
  · exact (show ∀ r ∈ cubicList, r.vecMul ⟨1, 7, 49⟩ = ⟨1, 7, 49⟩ → r = M3.one by decide +kernel) r ((cubic_iff_mem r).1 h) e
  · exact (show ∀ r ∈ hexList, r.vecMul ⟨1, 7, 49⟩ = ⟨1, 7, 49⟩ → r = M3.one by decide +kernel) r ((hexagonal_iff_mem r).1 h) e

/-- C113. Every notation with general positions has general reflections: 1 7 49 is one. -/
theorem general_reflection_exists {n : HallSymbolNotation} {g : GeneralPositions} (hg : HasPositions n g) :
    GeneralReflection n ⟨1, 7, 49⟩ := by
  rintro f hf ⟨c, hc⟩
  obtain ⟨m, rfl, hm, -⟩ := hf.isOp
  have hr : m.rot.vecMul ⟨1, 7, 49⟩ = ⟨1, 7, 49⟩ := by
    have key : ∀ p, (m.rot.vecMul ⟨1, 7, 49⟩).phase p + (V3.dot ⟨1, 7, 49⟩ m.tr : Int) / 12 = V3.phase ⟨1, 7, 49⟩ p + c := by
      intro p
      rw [← phase_act, hc]
    have k0 := key ⟨0, 0, 0⟩
    have k1 := key ⟨1, 0, 0⟩
    have k2 := key ⟨0, 1, 0⟩
    have k3 := key ⟨0, 0, 1⟩
    generalize m.rot.vecMul ⟨1, 7, 49⟩ = w at *
    simp only [V3.phase, mul_zero, mul_one, add_zero, zero_add] at k0 k1 k2 k3
    rw [k0] at k1 k2 k3
    apply V3.ext
    · exact_mod_cast add_right_cancel k1
    · exact_mod_cast add_right_cancel k2
    · exact_mod_cast add_right_cancel k3
  have hone : m.rot = M3.one := by
    refine small_rows ?_ hr
    have := pointGroup_fits_cell hg m.rot ⟨_, hf, m, rfl, rfl⟩
    unfold FitsFirstSymbol at this
    split at this
    · exact this.elim
    · split at this
      · exact .inr this
      · exact .inl this.1
      · exact .inr this
      · exact .inl this
  refine ⟨⟨m.tr.x / 12, m.tr.y / 12, m.tr.z / 12⟩, fun p => ?_⟩
  simp only [M4.act, hone, M3.one]
  ext <;> simp

/-- `I 4` (number 79) with the general reflections 1 7 49 (odd sum, forbidden) and, for the same notation, the special
reflection 0 0 2 that keeps the condition. -/
example : Consistent (hall "I 4") ∧ HasPositions (hall "I 4") (positionsOf "I 4") ∧
    ¬ LatticeCondition ⟨1, 7, 49⟩ (hall "I 4").latticeSymbol.char ∧ LatticeCondition ⟨0, 0, 2⟩ (hall "I 4").latticeSymbol.char := by
  have e : (hall "I 4").latticeSymbol.char = .I := by decide +kernel
  refine ⟨consistent_by_check (by decide +kernel), positionsOf_spec (by decide +kernel), ?_, ?_⟩ <;> rw [e] <;>
    simp only [LatticeCondition] <;> decide

end Verif
