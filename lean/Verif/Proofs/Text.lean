import Mathlib.Data.List.TakeWhile
import Verif.Proofs.Basic
import Verif.Spec.Text
import Verif.Model.Seitz

/-! # Lemmas about the printed texts -/

namespace Verif

open Spec

/-- The possible rotation entries of a crystallographic operation in a conventional cell. -/
def unitInts : List Int := [-1, 0, 1]

/-- The 23 reduced translation components. -/
def reducedInts : List Int := [-11, -10, -9, -8, -7, -6, -5, -4, -3, -2, -1, 0, 1, 2, 3, 4, 5, 6, 7, 8, 9, 10, 11]

theorem mem_unitInts {v : Int} : v ∈ unitInts ↔ -1 ≤ v ∧ v ≤ 1 := by
  simp only [unitInts, List.mem_cons, List.not_mem_nil, or_false]; omega

theorem mem_reducedInts {v : Int} : v ∈ reducedInts ↔ -12 < v ∧ v < 12 := by
  simp only [reducedInts, List.mem_cons, List.not_mem_nil, or_false]; omega

theorem translationText_tmod (v : Int) : M4.translationText v = M4.translationText (Int.tmod v 12) := by
  have hb := tmod12_bounds v
  unfold M4.translationText
  have h1 : (if -base + 1 ≤ v ∧ v < base then v else Int.tmod v base) = Int.tmod v 12 := by
    unfold base
    split
    · rcases tmod12_cases v with h | h <;> omega
    · rfl
  have h2 : (if -base + 1 ≤ Int.tmod v 12 ∧ Int.tmod v 12 < base then Int.tmod v 12
      else Int.tmod (Int.tmod v 12) base) = Int.tmod v 12 := by
    unfold base
    rw [if_pos (by omega)]
  rw [h1, h2]

/-- One printed component, read back. -/
theorem row_read : ∀ a ∈ unitInts, ∀ b ∈ unitInts, ∀ c ∈ unitInts, ∃ r, M4.rowText a b c = .ok r ∧ ',' ∉ r ∧
    readExpr r = some ⟨a, b, c, 0⟩ ∧
    ∀ t ∈ reducedInts, ',' ∉ r ++ M4.translationText t ∧
      readExpr (r ++ M4.translationText t) = some ⟨a, b, c, (t : ℚ) / 12⟩ := by
  have key : ∀ a ∈ unitInts, ∀ b ∈ unitInts, ∀ c ∈ unitInts,
      (match M4.rowText a b c with
       | .error _ => false
       | .ok r => (!r.contains ',') && decide (readExpr r = some ⟨a, b, c, 0⟩) &&
          reducedInts.all fun t => (!(r ++ M4.translationText t).contains ',') &&
            decide (readExpr (r ++ M4.translationText t) = some ⟨a, b, c, (t : ℚ) / 12⟩)) = true := by
    decide +kernel
  intro a ha b hb c hc
  have := key a ha b hb c hc
  cases hr : M4.rowText a b c with
  | error e => rw [hr] at this; cases this
  | ok r =>
    rw [hr] at this
    simp only [Bool.and_eq_true, List.all_eq_true, decide_eq_true_eq, Bool.not_eq_true', List.contains_eq_mem,
      decide_eq_false_iff_not] at this
    exact ⟨r, rfl, this.1.1, this.1.2, this.2⟩

theorem splitCommas_append {a b : List Char} (h : ',' ∉ a) : splitCommas (a ++ ',' :: b) = a :: splitCommas b := by
  induction a with
  | nil => simp [splitCommas]
  | cons c a ih =>
    have hc : c ≠ ',' := fun e => h (by rw [e]; exact List.mem_cons_self ..)
    rw [List.cons_append, splitCommas, if_neg hc, ih (fun e => h (List.mem_cons_of_mem _ e))]

theorem splitCommas_single {a : List Char} (h : ',' ∉ a) : splitCommas a = [a] := by
  induction a with
  | nil => rfl
  | cons c a ih =>
    have hc : c ≠ ',' := fun e => h (by rw [e]; exact List.mem_cons_self ..)
    rw [splitCommas, if_neg hc, ih (fun e => h (List.mem_cons_of_mem _ e))]

theorem splitCommas_three {a b c : List Char} (ha : ',' ∉ a) (hb : ',' ∉ b) (hc : ',' ∉ c) :
    splitCommas (M4.joinWith [','] [a, b, c]) = [a, b, c] := by
  have e : M4.joinWith [','] [a, b, c] = a ++ ',' :: (b ++ ',' :: c) := by
    simp [M4.joinWith]
  rw [e, splitCommas_append ha, splitCommas_append hb, splitCommas_single hc]

/-- All rotation entries are -1, 0 or 1. -/
def M3.Small (r : M3) : Prop := ∀ v ∈ r.toList, -1 ≤ v ∧ v ≤ 1

theorem M3.Small.mem {r : M3} (h : r.Small) :
    r.m11 ∈ unitInts ∧ r.m12 ∈ unitInts ∧ r.m13 ∈ unitInts ∧ r.m21 ∈ unitInts ∧ r.m22 ∈ unitInts ∧ r.m23 ∈ unitInts ∧
    r.m31 ∈ unitInts ∧ r.m32 ∈ unitInts ∧ r.m33 ∈ unitInts := by
  simp only [mem_unitInts]
  refine ⟨h _ ?_, h _ ?_, h _ ?_, h _ ?_, h _ ?_, h _ ?_, h _ ?_, h _ ?_, h _ ?_⟩ <;> simp [M3.toList]

theorem jones_read (m : M4) (h : m.rot.Small) : ∃ t, m.jones = .ok t ∧
    readTriplet t = some
      (⟨m.rot.m11, m.rot.m12, m.rot.m13, (Int.tmod m.tr.x 12 : ℚ) / 12⟩,
       ⟨m.rot.m21, m.rot.m22, m.rot.m23, (Int.tmod m.tr.y 12 : ℚ) / 12⟩,
       ⟨m.rot.m31, m.rot.m32, m.rot.m33, (Int.tmod m.tr.z 12 : ℚ) / 12⟩) := by
  obtain ⟨a1, a2, a3, b1, b2, b3, c1, c2, c3⟩ := h.mem
  obtain ⟨ra, ha, -, -, hat⟩ := row_read _ a1 _ a2 _ a3
  obtain ⟨rb, hb, -, -, hbt⟩ := row_read _ b1 _ b2 _ b3
  obtain ⟨rc, hc, -, -, hct⟩ := row_read _ c1 _ c2 _ c3
  obtain ⟨x1, x2⟩ := hat _ (mem_reducedInts.2 (tmod12_bounds m.tr.x))
  obtain ⟨y1, y2⟩ := hbt _ (mem_reducedInts.2 (tmod12_bounds m.tr.y))
  obtain ⟨z1, z2⟩ := hct _ (mem_reducedInts.2 (tmod12_bounds m.tr.z))
  rw [← translationText_tmod] at x1 x2 y1 y2 z1 z2
  refine ⟨M4.joinWith [','] [ra ++ M4.translationText m.tr.x, rb ++ M4.translationText m.tr.y,
    rc ++ M4.translationText m.tr.z], ?_, ?_⟩
  · unfold M4.jones M4.rotationTexts
    rw [ha, hb, hc]
    rfl
  · unfold readTriplet
    rw [splitCommas_three x1 y1 z1]
    simp only [x2, y2, z2]

theorem jonesRot_read (m : M4) (h : m.rot.Small) : ∃ t, m.jonesRot = .ok t ∧
    readTriplet t = some (⟨m.rot.m11, m.rot.m12, m.rot.m13, 0⟩, ⟨m.rot.m21, m.rot.m22, m.rot.m23, 0⟩,
      ⟨m.rot.m31, m.rot.m32, m.rot.m33, 0⟩) := by
  obtain ⟨a1, a2, a3, b1, b2, b3, c1, c2, c3⟩ := h.mem
  obtain ⟨ra, ha, x1, x2, -⟩ := row_read _ a1 _ a2 _ a3
  obtain ⟨rb, hb, y1, y2, -⟩ := row_read _ b1 _ b2 _ b3
  obtain ⟨rc, hc, z1, z2, -⟩ := row_read _ c1 _ c2 _ c3
  refine ⟨M4.joinWith [','] [ra, rb, rc], ?_, ?_⟩
  · unfold M4.jonesRot M4.rotationTexts
    rw [ha, hb, hc]
    rfl
  · unfold readTriplet
    rw [splitCommas_three x1 y1 z1]
    simp only [x2, y2, z2]

/-! ## Texts of arbitrary rotations: large entries print non-ASCII characters -/

theorem entryText_large {c : Nat} (hc : 120 ≤ c) {v : Int} (hv : v < -1 ∨ 1 < v) {t : List Char}
    (h : M4.entryText c v = .ok t) : ∃ ch ∈ t, 240 ≤ ch.toNat := by
  unfold M4.entryText at h
  simp only [] at h
  have hn : 240 ≤ ((c : Int) * v).natAbs := by
    rw [Int.natAbs_mul, Int.natAbs_natCast]
    have h2 : 2 ≤ v.natAbs := by omega
    calc 240 = 120 * 2 := rfl
      _ ≤ c * v.natAbs := Nat.mul_le_mul hc h2
  generalize hN : ((c : Int) * v).natAbs = N at h hn
  unfold M4.charFromU32 at h
  split at h
  · cases h
  · rename_i ch hch
    split at hch
    · rename_i hvalid
      have hch' : ch.toNat = N := by
        cases hch
        rfl
      have h0 : (c : Int) * v ≠ 0 := by
        intro e; rw [e] at hN; simp at hN; omega
      split at h
      · cases h; exact ⟨ch, by simp, by omega⟩
      · cases h; exact ⟨ch, by simp, by omega⟩
    · cases hch

theorem rowText_large {a b c : Int} {t : List Char} (h : M4.rowText a b c = .ok t)
    (hv : (a < -1 ∨ 1 < a) ∨ (b < -1 ∨ 1 < b) ∨ (c < -1 ∨ 1 < c)) : ∃ ch ∈ t, 240 ≤ ch.toNat := by
  unfold M4.rowText at h
  cases ha : M4.entryText 120 a with
  | error e => rw [ha] at h; cases h
  | ok ta =>
  cases hb : M4.entryText 121 b with
  | error e => rw [ha, hb] at h; cases h
  | ok tb =>
  cases hc : M4.entryText 122 c with
  | error e => rw [ha, hb, hc] at h; cases h
  | ok tc =>
    rw [ha, hb, hc] at h
    have h' : t = ((ta ++ tb ++ tc).filter (· ≠ '0')).dropWhile (· = '+') := by cases h; rfl
    have hex : ∃ ch ∈ ta ++ tb ++ tc, 240 ≤ ch.toNat := by
      rcases hv with hv | hv | hv
      · obtain ⟨ch, h1, h2⟩ := entryText_large (by decide) hv ha
        exact ⟨ch, by simp [h1], h2⟩
      · obtain ⟨ch, h1, h2⟩ := entryText_large (by decide) hv hb
        exact ⟨ch, by simp [h1], h2⟩
      · obtain ⟨ch, h1, h2⟩ := entryText_large (by decide) hv hc
        exact ⟨ch, by simp [h1], h2⟩
    obtain ⟨ch, h1, h2⟩ := hex
    refine ⟨ch, ?_, h2⟩
    have hne0 : ch ≠ '0' := by rintro rfl; revert h2; decide
    have hnep : ch ≠ '+' := by rintro rfl; revert h2; decide
    have h3 : ch ∈ (ta ++ tb ++ tc).filter (· ≠ '0') := List.mem_filter.2 ⟨h1, by simpa using hne0⟩
    rw [h']
    rw [← List.takeWhile_append_dropWhile (p := fun c => decide (c = '+')) (l := (ta ++ tb ++ tc).filter (· ≠ '0'))] at h3
    rcases List.mem_append.1 h3 with h4 | h4
    · exact absurd (by simpa using List.mem_takeWhile_imp h4) hnep
    · exact h4

theorem jonesRot_ascii_small {m : M4} {t : List Char} (h : m.jonesRot = .ok t) (hascii : ∀ ch ∈ t, ch.toNat < 128) :
    m.rot.Small := by
  unfold M4.jonesRot M4.rotationTexts at h
  cases h1 : M4.rowText m.rot.m11 m.rot.m12 m.rot.m13 with
  | error e => rw [h1] at h; cases h
  | ok ra =>
  cases h2 : M4.rowText m.rot.m21 m.rot.m22 m.rot.m23 with
  | error e => rw [h1, h2] at h; cases h
  | ok rb =>
  cases h3 : M4.rowText m.rot.m31 m.rot.m32 m.rot.m33 with
  | error e => rw [h1, h2, h3] at h; cases h
  | ok rc =>
    rw [h1, h2, h3] at h
    have h' : t = ra ++ ',' :: (rb ++ ',' :: rc) := by
      cases h
      simp [M4.joinWith]
    have key : ∀ (a b c : Int) (r : List Char), M4.rowText a b c = .ok r → (∀ ch ∈ r, ch ∈ t) →
        (-1 ≤ a ∧ a ≤ 1) ∧ (-1 ≤ b ∧ b ≤ 1) ∧ (-1 ≤ c ∧ c ≤ 1) := by
      intro a b c r hr hsub
      by_contra hne
      obtain ⟨ch, hch, hge⟩ := rowText_large hr (by omega)
      have := hascii ch (hsub ch hch)
      omega
    obtain ⟨a1, a2, a3⟩ := key _ _ _ _ h1 (by rw [h']; intro ch hch; simp [hch])
    obtain ⟨b1, b2, b3⟩ := key _ _ _ _ h2 (by rw [h']; intro ch hch; simp [hch])
    obtain ⟨c1, c2, c3⟩ := key _ _ _ _ h3 (by rw [h']; intro ch hch; simp [hch])
    intro v hv
    simp only [M3.toList, List.mem_cons, List.not_mem_nil, or_false] at hv
    rcases hv with rfl | rfl | rfl | rfl | rfl | rfl | rfl | rfl | rfl <;> assumption

end Verif
