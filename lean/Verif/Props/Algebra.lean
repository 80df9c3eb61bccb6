import Mathlib.Tactic.Ring
import Mathlib.Tactic.FieldSimp
import Verif.Model.Fraction
import Verif.Props.Contracts

/-! # Sums, differences, parts and fractions of operations (C79) -/

namespace Verif

/-- C79. `+` and `-` of two matrices are those of a commutative group on all sixteen entries. -/
theorem sum_laws (a b c : M4) :
    (a.addM b).subM b = a ∧ (a.subM b).addM b = a ∧ a.addM b = b.addM a ∧
    (a.addM b).addM c = a.addM (b.addM c) ∧ (a.subM b).subM c = a.subM (b.addM c) := by
  refine ⟨?_, ?_, ?_, ?_, ?_⟩ <;>
    ext <;> simp only [M4.addM, M4.subM, M3.add, M3.sub, V3.add, V3.sub] <;> ring

/-- C79. `a == b` exactly when the difference has rotation part zero and a translation of whole cells. -/
theorem eq_iff_difference (a b : M4) :
    M4.eqv a b = true ↔
      (∀ v : V3, (a.subM b).rotationPart.mulVec v = ⟨0, 0, 0⟩) ∧
      ∃ k : V3, (a.subM b).translationPart = ⟨12 * k.x, 12 * k.y, 12 * k.z⟩ := by
  rw [M4.eqv_iff]
  constructor
  · rintro ⟨h1, ⟨k1, e1⟩, ⟨k2, e2⟩, ⟨k3, e3⟩⟩
    refine ⟨fun v => ?_, ⟨k1, k2, k3⟩, ?_⟩
    · have : (a.subM b).rotationPart = ⟨0, 0, 0, 0, 0, 0, 0, 0, 0⟩ := by
        ext <;> simp [M4.subM, M3.sub, M4.rotationPart, h1]
      rw [this]
      simp [M3.mulVec]
    · exact V3.ext e1 e2 e3
  · rintro ⟨h, k, hk⟩
    have hx := h ⟨1, 0, 0⟩
    have hy := h ⟨0, 1, 0⟩
    have hz := h ⟨0, 0, 1⟩
    simp only [M4.subM, M3.sub, M3.mulVec, V3.mk.injEq, mul_one, mul_zero, add_zero, zero_add, M4.rotationPart] at hx hy hz
    obtain ⟨x1, x2, x3⟩ := hx
    obtain ⟨y1, y2, y3⟩ := hy
    obtain ⟨z1, z2, z3⟩ := hz
    refine ⟨M3.ext (by omega) (by omega) (by omega) (by omega) (by omega) (by omega) (by omega) (by omega) (by omega),
      ⟨k.x, congrArg V3.x hk⟩, ⟨k.y, congrArg V3.y hk⟩, ⟨k.z, congrArg V3.z hk⟩⟩

/-- C79. The sum and the difference of two operations are never operations: their last row is wrong, so their products
no longer compose. -/
theorem sum_not_operation (a b : M4) (ha : a.Affine) (hb : b.Affine) : ¬ (a.addM b).Affine ∧ ¬ (a.subM b).Affine := by
  constructor
  · intro h
    have := h.2
    simp only [M4.addM, ha.2, hb.2] at this
    omega
  · intro h
    have := h.2
    simp only [M4.subM, ha.2, hb.2] at this
    omega

example : M4.eqv (sampleA.addM sampleB) sampleA = false ∧
    (sampleA.subM sampleA).rotationPart = ⟨0, 0, 0, 0, 0, 0, 0, 0, 0⟩ ∧
    M4.eqv sampleA (sampleA.addV ⟨12, -24, 0⟩) = true := by decide +kernel

/-- C79. `set_translation_part` replaces the translation and nothing else of an operation: the result rotates like `m`
and moves by `t/12`, whatever the translation was before. -/
theorem set_translation_meaning (m : M4) (t : V3) :
    (m.setTranslationPart t).translationPart = t ∧ (m.setTranslationPart t).rotationPart = m.rotationPart ∧
    (m.Affine → (m.setTranslationPart t).Affine ∧ ∀ p,
      (m.setTranslationPart t).act p = ((m.act p).subTwelfths m.translationPart).addTwelfths t) ∧
    ∀ t', (m.setTranslationPart t').setTranslationPart t = m.setTranslationPart t := by
  refine ⟨rfl, rfl, fun h => ⟨⟨h.1, rfl⟩, fun p => ?_⟩, fun t' => rfl⟩
  ext <;> simp only [M4.setTranslationPart, M4.act, Pt.subTwelfths, Pt.addTwelfths, M4.translationPart] <;> ring

/-- C79. `is_unique_rotation` is symmetric, ignores translations, and is false exactly when the two rotation parts agree
on every vector up to one sign, that is up to the inversion. -/
theorem unique_rotation_meaning (a b : M4) :
    (a.isUniqueRotation b = b.isUniqueRotation a) ∧
    (∀ t t', (a.setTranslationPart t).isUniqueRotation (b.setTranslationPart t') = a.isUniqueRotation b) ∧
    (a.isUniqueRotation b = false ↔
      (∀ v, a.rotationPart.mulVec v = b.rotationPart.mulVec v) ∨
      (∀ v, a.rotationPart.mulVec v = (b.rotationPart.mulVec v).neg)) := by
  have hneg : ∀ x y : M3, x.map (fun v => -v) = y ↔ y.map (fun v => -v) = x := by
    intro x y
    constructor <;> (rintro rfl; ext <;> simp [M3.map])
  have hext : ∀ x y : M3, (∀ v, x.mulVec v = y.mulVec v) ↔ x = y := by
    intro x y
    refine ⟨fun h => ?_, fun h => by simp [h]⟩
    have hx := h ⟨1, 0, 0⟩
    have hy := h ⟨0, 1, 0⟩
    have hz := h ⟨0, 0, 1⟩
    simp only [M3.mulVec, V3.mk.injEq, mul_one, mul_zero, add_zero, zero_add] at hx hy hz
    exact M3.ext hx.1 hy.1 hz.1 hx.2.1 hy.2.1 hz.2.1 hx.2.2 hy.2.2 hz.2.2
  refine ⟨?_, fun t t' => rfl, ?_⟩
  · simp only [M4.isUniqueRotation, ne_eq, hneg a.rotationPart b.rotationPart, eq_comm (a := a.rotationPart)]
  · have hm : ∀ v, (b.rotationPart.mulVec v).neg = (b.rotationPart.map (fun v => -v)).mulVec v := by
      intro v
      ext <;> simp only [V3.neg, M3.map, M3.mulVec] <;> ring
    simp only [hm, hext, M4.isUniqueRotation, ne_eq, Bool.and_eq_false_iff, decide_eq_false_iff_not, not_not,
      hneg a.rotationPart b.rotationPart, eq_comm (a := a.rotationPart)]

example : sampleA.isUniqueRotation sampleB = true ∧ M4.inversion.isUniqueRotation M4.identity = false ∧
    (sampleA.addV ⟨1, 2, 3⟩).isUniqueRotation sampleA = false := by decide +kernel

/-- The column `(x, y, z, 1)` of a point. -/
def Pt.column (p : Pt) : List ℚ := [p.x, p.y, p.z, 1]

/-- Product of a row with a column. -/
def rowTimes (row col : List ℚ) : ℚ := ((row.zip col).map fun e => e.1 * e.2).sum

/-- C79. `to_fraction` is the operation in fractional coordinates, exactly: multiplying it with the column of a point
gives the column of the image; and two matrices with the same fractions are the same sixteen numbers. -/
theorem fraction_meaning (a b : M4) :
    (∀ p : Pt, a.Affine → a.toFraction.map (rowTimes · p.column) = (a.act p).column) ∧
    (a.toFraction = b.toFraction ↔ a = b) := by
  constructor
  · intro p h
    obtain ⟨h1, h2⟩ := h
    simp [M4.toFraction, rowTimes, Pt.column, M4.act, h1, h2]
    refine ⟨?_, ?_, ?_⟩ <;> ring
  · refine ⟨fun h => ?_, fun h => by rw [h]⟩
    simp only [M4.toFraction, List.cons.injEq, and_true, Int.cast_inj] at h
    have e : ∀ x y : Int, (x : ℚ) / 12 = (y : ℚ) / 12 → x = y := by
      intro x y h
      have : (x : ℚ) = y := by linarith
      exact_mod_cast this
    obtain ⟨⟨a1, a2, a3, a4⟩, ⟨b1, b2, b3, b4⟩, ⟨c1, c2, c3, c4⟩, d1, d2, d3, d4⟩ := h
    exact M4.ext (M3.ext a1 a2 a3 b1 b2 b3 c1 c2 c3) (V3.ext (e _ _ a4) (e _ _ b4) (e _ _ c4)) (V3.ext d1 d2 d3) d4

example : sampleA.toFraction = [[0, -1, 0, 1 / 4], [1, 0, 0, 5 / 12], [0, 0, 1, -7 / 12], [0, 0, 0, 1]] := by
  decide +kernel

end Verif
