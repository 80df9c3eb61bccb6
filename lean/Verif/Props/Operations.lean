import Verif.Proofs.Basic

/-!
# Arithmetic of operations (C01-C04, C06)
-/

namespace Verif

/-- A concrete non-trivial operation: `-y+1/4, x+5/12, z-7/12`. -/
def sampleA : M4 := ⟨⟨0, -1, 0, 1, 0, 0, 0, 0, 1⟩, ⟨3, 5, -7⟩, ⟨0, 0, 0⟩, 1⟩

/-- Another one: `-x+11/12, y, -z+1/2` with an unreduced translation. -/
def sampleB : M4 := ⟨⟨-1, 0, 0, 0, 1, 0, 0, 0, -1⟩, ⟨11, 0, 30⟩, ⟨0, 0, 0⟩, 1⟩

/-- C01. The product acts as "first `b`, then `a`" up to one whole-cell translation (the same for all points). -/
theorem mul_is_composition (a b : M4) (hb : b.Affine) :
    SameModCell (a.mul b).act (fun p => a.act (b.act p)) := by
  have h := M4.sameModCell_of_cong (a := a.mul b)
    (b := ⟨a.rot.mul b.rot, (a.rot.mulVec b.tr).add a.tr, V3.zero, 1⟩) (M4.mul_rot hb) (M4.mul_tr_cong hb)
  obtain ⟨k, hk⟩ := h
  exact ⟨k, fun p => by simp only [hk p, M4.act_act]⟩

example : sampleB.Affine ∧ ∃ p, (sampleA.mul sampleB).act p ≠ p :=
  ⟨⟨rfl, rfl⟩, ⟨0, 0, 0⟩, by
    intro h
    have := congrArg Pt.x h
    simp [sampleA, sampleB, M4.mul, M4.mulRaw, M4.act, V3.add, V3.smul, M3.mulVec, V3.map, base] at this⟩

/-- C02. `a == b` means: same map up to one fixed whole-cell translation. -/
theorem eq_iff_same_operation (a b : M4) : M4.eqv a b = true ↔ SameModCell a.act b.act := by
  rw [M4.eqv_iff]
  exact ⟨fun h => M4.sameModCell_of_cong h.1 h.2, M4.cong_of_sameModCell⟩

/-- C02. `==` is an equivalence relation. -/
theorem eq_equivalence : Equivalence (fun a b : M4 => M4.eqv a b = true) := by
  refine ⟨fun a => ?_, fun {a b} h => ?_, fun {a b c} h h' => ?_⟩
  · exact M4.eqv_iff.2 ⟨rfl, V3.Cong.refl _⟩
  · obtain ⟨h1, h2⟩ := M4.eqv_iff.1 h
    exact M4.eqv_iff.2 ⟨h1.symm, h2.symm⟩
  · obtain ⟨h1, h2⟩ := M4.eqv_iff.1 h
    obtain ⟨h3, h4⟩ := M4.eqv_iff.1 h'
    exact M4.eqv_iff.2 ⟨h1.trans h3, h2.trans h4⟩

/-- C02. `*` respects `==`. -/
theorem mul_respects_eq {a a' b b' : M4} (hb : b.Affine) (hb' : b'.Affine)
    (h : M4.eqv a a' = true) (h' : M4.eqv b b' = true) : M4.eqv (a.mul b) (a'.mul b') = true := by
  obtain ⟨h1, h2⟩ := M4.eqv_iff.1 h
  obtain ⟨h3, h4⟩ := M4.eqv_iff.1 h'
  refine M4.eqv_iff.2 ⟨by rw [M4.mul_rot hb, M4.mul_rot hb', h1, h3], ?_⟩
  refine (M4.mul_tr_cong hb).trans (V3.Cong.trans ?_ (M4.mul_tr_cong hb').symm)
  rw [h1]
  exact (M3.mulVec_cong _ h4).add h2

/-- C02. `+` with a translation vector respects `==` and vectors congruent modulo the cell. -/
theorem add_respects_eq {a a' : M4} {v v' : V3} (h : M4.eqv a a' = true)
    (hv : ∃ k : V3, v = ⟨v'.x + 12 * k.x, v'.y + 12 * k.y, v'.z + 12 * k.z⟩) :
    M4.eqv (a.addV v) (a'.addV v') = true := by
  obtain ⟨h1, h2⟩ := M4.eqv_iff.1 h
  obtain ⟨k, rfl⟩ := hv
  refine M4.eqv_iff.2 ⟨h1, ?_⟩
  refine (V3.cong_map_tmod _).trans (V3.Cong.trans (h2.add ?_) (V3.cong_map_tmod _).symm)
  exact ⟨⟨k.x, by simp⟩, ⟨k.y, by simp⟩, ⟨k.z, by simp⟩⟩

/-- C02. `a + v` is the operation `a` followed by the translation `v/12`. -/
theorem add_is_translation (a : M4) (v : V3) :
    SameModCell (a.addV v).act (fun p => (a.act p).addTwelfths v) := by
  obtain ⟨k, hk⟩ := M4.sameModCell_of_cong (a := a.addV v) (b := { a with tr := a.tr.add v }) rfl
    (V3.cong_map_tmod _)
  refine ⟨k, fun p => ?_⟩
  rw [hk p]
  congr 1
  ext <;> simp only [M4.act, Pt.addTwelfths, V3.add] <;> push_cast <;> ring

-- operations that are `==` although their translations differ by cells, and operations that are not
example : M4.eqv sampleB { sampleB with tr := ⟨-1, 12, 6⟩ } = true ∧ sampleB ≠ { sampleB with tr := ⟨-1, 12, 6⟩ } ∧
    M4.eqv sampleA sampleB = false := by decide +kernel

/-- C03. Associativity up to `==`. -/
theorem mul_assoc_eq (a b c : M4) (hb : b.Affine) (hc : c.Affine) :
    M4.eqv ((a.mul b).mul c) (a.mul (b.mul c)) = true := by
  refine M4.eqv_iff.2 ⟨?_, ?_⟩
  · rw [M4.mul_rot hc, M4.mul_rot hb, M4.mul_rot (hb.mul hc), M4.mul_rot hc, M3.mul_assoc]
  · refine (M4.mul_tr_cong hc).trans (V3.Cong.trans ?_ (M4.mul_tr_cong (hb.mul hc)).symm)
    rw [M4.mul_rot hb]
    refine ((V3.Cong.refl _).add (M4.mul_tr_cong hb)).trans ?_
    refine V3.Cong.trans ?_ ((M3.mulVec_cong _ (M4.mul_tr_cong hc)).add (V3.Cong.refl _)).symm
    rw [M3.mulVec_add, M3.mulVec_mulVec, V3.add_assoc]
    exact V3.Cong.refl _

/-- C03. `identity()` is neutral on both sides up to `==`. -/
theorem identity_neutral (a : M4) (ha : a.Affine) :
    M4.eqv (M4.identity.mul a) a = true ∧ M4.eqv (a.mul M4.identity) a = true := by
  have hi : M4.identity.Affine := ⟨rfl, rfl⟩
  refine ⟨M4.eqv_iff.2 ⟨?_, ?_⟩, M4.eqv_iff.2 ⟨?_, ?_⟩⟩
  · rw [M4.mul_rot ha]; exact M3.one_mul _
  · refine (M4.mul_tr_cong ha).trans ?_
    show V3.Cong ((M3.one.mulVec a.tr).add V3.zero) a.tr
    rw [M3.one_mulVec, V3.add_zero]; exact V3.Cong.refl _
  · rw [M4.mul_rot hi]; exact M3.mul_one _
  · refine (M4.mul_tr_cong hi).trans ?_
    show V3.Cong ((a.rot.mulVec V3.zero).add a.tr) a.tr
    rw [M3.mulVec_zero, V3.zero_add]; exact V3.Cong.refl _

/-- C03. The identity fixes every point, the inversion sends `p` to `-p`, and applying it twice is the identity. -/
theorem identity_inversion_meaning :
    (∀ p, M4.identity.act p = p) ∧ (∀ p, M4.inversion.act p = ⟨-p.x, -p.y, -p.z⟩) ∧
      M4.eqv (M4.inversion.mul M4.inversion) M4.identity = true := by
  refine ⟨fun p => ?_, fun p => ?_, by decide +kernel⟩
  · ext <;> simp [M4.identity, M4.one, M4.act, M3.one, V3.zero]
  · ext <;> simp [M4.inversion, M4.act, M3.one, M3.map, V3.zero]

example : sampleA.Affine ∧ sampleB.Affine ∧ ¬ M4.eqv (sampleA.mul sampleB) (sampleB.mul sampleA) = true := by
  refine ⟨⟨rfl, rfl⟩, ⟨rfl, rfl⟩, by decide +kernel⟩

/-- C04. The translation of every product lies strictly between -12 and 12 in each component. -/
theorem mul_translation_reduced (a b : M4) :
    let t := (a.mul b).translationPart
    (-12 < t.x ∧ t.x < 12) ∧ (-12 < t.y ∧ t.y < 12) ∧ (-12 < t.z ∧ t.z < 12) :=
  ⟨tmod12_bounds _, tmod12_bounds _, tmod12_bounds _⟩

/-- C04. The translation of every sum with a vector lies strictly between -12 and 12 in each component. -/
theorem add_translation_reduced (a : M4) (v : V3) :
    let t := (a.addV v).translationPart
    (-12 < t.x ∧ t.x < 12) ∧ (-12 < t.y ∧ t.y < 12) ∧ (-12 < t.z ∧ t.z < 12) :=
  ⟨tmod12_bounds _, tmod12_bounds _, tmod12_bounds _⟩

/-- C04. The last row stays `(0,0,0,1)`. -/
theorem last_row_preserved (a b : M4) (v : V3) (ha : a.Affine) (hb : b.Affine) :
    (a.mul b).Affine ∧ (a.addV v).Affine :=
  ⟨ha.mul hb, ⟨ha.1, ha.2⟩⟩

example : (sampleB.mul sampleB).translationPart = ⟨0, 0, 0⟩ ∧ sampleB.tr.z = 30 ∧
    (sampleA.mul sampleA).translationPart = ⟨-2, 8, -2⟩ := by decide +kernel

end Verif
