import Verif.Proofs.Text
import Verif.Proofs.Positions
import Verif.Proofs.Holohedry
import Verif.Spec.Group

/-! # Properties of the printed texts (C13, C14, C40, C41) -/

namespace Verif

open Spec

/-- C13. The text of an operation, read as three expressions in `x, y, z`, gives back its rotation part and its
translation reduced modulo 1 with its sign kept. -/
theorem jones_faithful (m : M4) (h : m.rot.Small) : ∃ t, m.jones = .ok t ∧
    readTriplet t = some
      (⟨m.rot.m11, m.rot.m12, m.rot.m13, (Int.tmod m.tr.x 12 : ℚ) / 12⟩,
       ⟨m.rot.m21, m.rot.m22, m.rot.m23, (Int.tmod m.tr.y 12 : ℚ) / 12⟩,
       ⟨m.rot.m31, m.rot.m32, m.rot.m33, (Int.tmod m.tr.z 12 : ℚ) / 12⟩) := jones_read m h

/-- C13. Read as a map of space, the text denotes the operation itself up to a whole-cell translation. -/
theorem jones_denotes (m : M4) (h : m.rot.Small) : ∃ t f, m.jones = .ok t ∧ readMap t = some f ∧
    SameModCell f m.act := by
  obtain ⟨t, h1, h2⟩ := jones_read m h
  refine ⟨t, _, h1, by unfold readMap; rw [h2]; rfl, ?_⟩
  obtain ⟨k, hk⟩ := M4.sameModCell_of_cong (a := ⟨m.rot, m.tr.map (fun v => Int.tmod v base), V3.zero, 1⟩) (b := m) rfl
    (V3.cong_map_tmod _)
  refine ⟨k, fun p => ?_⟩
  rw [← hk p]
  ext <;> simp only [Linear.eval, M4.act, V3.map, base]

/-- C13. Two operations with the same text are equal modulo whole cells. -/
theorem jones_injective (a b : M4) (ha : a.rot.Small) (hb : b.rot.Small) (h : a.jones = b.jones) :
    M4.eqv a b = true := by
  obtain ⟨ta, h1, h2⟩ := jones_read a ha
  obtain ⟨tb, h3, h4⟩ := jones_read b hb
  rw [h1, h3] at h
  have e : ta = tb := Except.ok.inj h
  subst e
  rw [h2] at h4
  simp only [Option.some.injEq, Prod.mk.injEq, Linear.mk.injEq, Int.cast_inj] at h4
  obtain ⟨⟨r1, r2, r3, t1⟩, ⟨r4, r5, r6, t2⟩, ⟨r7, r8, r9, t3⟩⟩ := h4
  rw [M4.eqv_iff]
  refine ⟨by ext <;> assumption, ?_⟩
  have key : ∀ u v : Int, ((Int.tmod u 12 : ℚ) / 12 = (Int.tmod v 12 : ℚ) / 12) → (12 : Int) ∣ u - v := by
    intro u v e
    have e' : (Int.tmod u 12 : ℚ) = Int.tmod v 12 := by linarith
    have e'' : Int.tmod u 12 = Int.tmod v 12 := by exact_mod_cast e'
    have d1 := tmod12_dvd u
    have d2 := tmod12_dvd v
    omega
  exact ⟨key _ _ t1, key _ _ t2, key _ _ t3⟩

/-- A sample operation with a negative and an unreduced translation. -/
def sampleOp : M4 := ⟨⟨1, -1, 0, 1, 0, 0, 0, 0, -1⟩, ⟨-3, 20, 4⟩, V3.zero, 1⟩

example : sampleOp.rot.Small := by unfold M3.Small; decide
example : sampleOp.jones = .ok "x-y-1/4,x+2/3,-z+1/3".toList := by decide +kernel

/-- C14. The rotation text does not depend on the translation. -/
theorem rotation_text_ignores_translation (a b : M4) (h : a.rot = b.rot) : a.jonesRot = b.jonesRot := by
  unfold M4.jonesRot M4.rotationTexts; rw [h]

/-- C14. Different rotations have different texts. -/
theorem rotation_text_injective (a b : M4) (ha : a.rot.Small) (hb : b.rot.Small) (h : a.jonesRot = b.jonesRot) :
    a.rot = b.rot := by
  obtain ⟨ta, h1, h2⟩ := jonesRot_read a ha
  obtain ⟨tb, h3, h4⟩ := jonesRot_read b hb
  rw [h1, h3] at h
  have e : ta = tb := Except.ok.inj h
  subst e
  rw [h2] at h4
  simp only [Option.some.injEq, Prod.mk.injEq, Linear.mk.injEq, Int.cast_inj] at h4
  obtain ⟨⟨r1, r2, r3, -⟩, ⟨r4, r5, r6, -⟩, ⟨r7, r8, r9, -⟩⟩ := h4
  ext <;> assumption

example : sampleOp.jonesRot = .ok "x-y,x,-z".toList := by decide +kernel

/-- The symmetries of cubic and hexagonal cells have entries -1, 0, 1. -/
theorem holohedry_small (r : M3) (h : r.Cubic ∨ r.Hexagonal) : r.Small := by
  rcases h with h | h
  · rw [cubic_iff_mem] at h
    have key : ∀ r ∈ cubicList, ∀ v ∈ r.toList, -1 ≤ v ∧ v ≤ 1 := by decide +kernel
    exact key r h
  · rw [hexagonal_iff_mem] at h
    have key : ∀ r ∈ hexList, ∀ v ∈ r.toList, -1 ≤ v ∧ v ≤ 1 := by decide +kernel
    exact key r h

example : sampleOp.rot.Hexagonal := by unfold M3.Hexagonal; decide +kernel

/-! ## Sets of positions -/

/-- C40. `derive_full_sets`: one set per lattice translation, each of the core size; the `k`-th operation of the `i`-th
set acts as the `k`-th core operation followed by the `i`-th translation, up to whole cells. -/
theorem full_sets_shape (g : GeneralPositions) :
    g.deriveFullSets.length = g.latticeTranslations.length ∧
    ∀ (i : Nat) (v : V3), g.latticeTranslations[i]? = some v → ∃ set : List M4, g.deriveFullSets[i]? = some set ∧
      set.length = g.numOfGeneralPos ∧
      ∀ (k : Nat) (c : M4), g.corePositionSet[k]? = some c → ∃ m : M4, set[k]? = some m ∧ m.rot = c.rot ∧ m.bot = c.bot ∧ m.w = c.w ∧
        SameModCell m.act (fun p => (c.act p).addTwelfths v) := by
  unfold GeneralPositions.deriveFullSets
  refine ⟨by rw [List.length_map], ?_⟩
  intro i v hv
  refine ⟨g.corePositionSet.map fun m => m.addV v, by rw [List.getElem?_map, hv]; rfl,
    by rw [List.length_map]; rfl, ?_⟩
  intro k c hc
  refine ⟨c.addV v, by rw [List.getElem?_map, hc]; rfl, rfl, rfl, rfl, ?_⟩
  obtain ⟨q, hq⟩ := M4.sameModCell_of_cong (a := c.addV v) (b := ⟨c.rot, c.tr.add v, V3.zero, 1⟩) rfl
    (V3.cong_map_tmod _)
  refine ⟨q, fun p => ?_⟩
  rw [hq p, ← trMat_comp, trMat_act]
  rfl

example : ∃ g : GeneralPositions, g.latticeTranslations.length = 2 ∧ g.corePositionSet.length = 2 ∧
    g.deriveFullSets.flatten.length = 4 :=
  ⟨⟨[V3.zero, ⟨6, 6, 6⟩], [M4.identity, M4.inversion]⟩, rfl, rfl, by decide⟩

/-- The text a numbered line must have. -/
def lineText (k : Nat) (t : List Char) : List Char := Nat.toDigits 10 k ++ ", ".toList ++ t

/-- The lines of one set numbered from `start` (an empty set still takes an empty line). -/
def setLines (start : Nat) (ts : List (List Char)) : List (List Char) :=
  if ts = [] then [[]] else (List.range ts.length).zipWith (fun i t => lineText (start + i) t) ts

/-- Headings and numbered lines: for each translation its heading, then its operation texts, numbered onwards. -/
def expectedLines (start : Nat) : List (V3 × List (List Char)) → List (List Char)
  | [] => []
  | (v, ts) :: rest =>
    (GeneralPositions.heading v :: setLines start ts) ++ expectedLines (start + ts.length) rest

/-- Cut a list of texts into consecutive pieces of length `size`, one per translation. -/
def cut (size : Nat) : List V3 → List (List Char) → List (V3 × List (List Char))
  | [], _ => []
  | v :: vs, ts => (v, ts.take size) :: cut size vs (ts.drop size)

theorem numberedLines_ok (start : Nat) (ms : List M4) :
    GeneralPositions.numberedLines start ms =
      (ms.mapM M4.jones).map fun ts => (List.range ts.length).zipWith (fun i t => lineText (start + i) t) ts := by
  induction ms generalizing start with
  | nil => rfl
  | cons m ms ih =>
    unfold GeneralPositions.numberedLines GeneralPositions.numberedLine
    rw [ih, List.mapM_cons]
    cases hm : m.jones with
    | error e => rfl
    | ok t =>
      cases hms : ms.mapM M4.jones with
      | error e => rfl
      | ok ts =>
        change Except.ok (_ :: List.zipWith _ (List.range ts.length) ts)
          = Except.ok (List.zipWith _ (List.range (ts.length + 1)) (t :: ts))
        congr 1
        rw [List.range_succ_eq_map, List.zipWith_cons_cons, List.zipWith_map_left]
        congr 1
        congr 1
        funext i t
        have : start + 1 + i = start + i.succ := by omega
        rw [this]

theorem joinWith_cons (sep a : List Char) {l : List (List Char)} (h : l ≠ []) :
    M4.joinWith sep (a :: l) = a ++ sep ++ M4.joinWith sep l := by
  cases l with
  | nil => exact absurd rfl h
  | cons b l => rfl

theorem joinWith_append (sep : List Char) {l l' : List (List Char)} (h : l ≠ []) (h' : l' ≠ []) :
    M4.joinWith sep (l ++ l') = M4.joinWith sep l ++ sep ++ M4.joinWith sep l' := by
  induction l with
  | nil => exact absurd rfl h
  | cons a l ih =>
    cases l with
    | nil => rw [List.singleton_append, joinWith_cons _ _ h']; rfl
    | cons b l =>
      rw [List.cons_append, joinWith_cons sep a (l := b :: l ++ l') (by simp), ih (by simp),
        joinWith_cons sep a (l := b :: l) (by simp)]
      simp only [List.append_assoc]

theorem mapM_append_eq (f : M4 → Except Panic (List Char)) (l l' : List M4) :
    (l ++ l').mapM f = (do let a ← l.mapM f; let b ← l'.mapM f; pure (a ++ b)) := List.mapM_append ..

theorem mapM_length {f : M4 → Except Panic (List Char)} {l : List M4} {r : List (List Char)}
    (h : l.mapM f = .ok r) : r.length = l.length := by
  induction l generalizing r with
  | nil => cases h; rfl
  | cons m l ih =>
    rw [List.mapM_cons] at h
    cases hm : f m with
    | error e => rw [hm] at h; cases h
    | ok t =>
      cases hl : l.mapM f with
      | error e => rw [hm, hl] at h; cases h
      | ok ts => rw [hm, hl] at h; cases h; simp [ih hl]

theorem joinWith_setLines (start : Nat) (ts : List (List Char)) :
    M4.joinWith ['\n'] ((List.range ts.length).zipWith (fun i t => lineText (start + i) t) ts)
      = M4.joinWith ['\n'] (setLines start ts) := by
  unfold setLines
  split
  · rename_i h; subst h; rfl
  · rfl

theorem setLines_ne (start : Nat) (ts : List (List Char)) : setLines start ts ≠ [] := by
  unfold setLines
  split
  · simp
  · rename_i h
    cases ts with
    | nil => exact absurd rfl h
    | cons t ts => rw [List.length_cons, List.range_succ_eq_map]; simp

theorem blocks_eq (core : List M4) (setI : Nat) (vs : List V3) :
    (∀ e, (vs.map fun v => core.map fun m => m.addV v).flatten.mapM M4.jones = .error e →
      GeneralPositions.blocks core.length setI ((vs.map fun v => core.map fun m => m.addV v).zip vs) = .error e) ∧
    ∀ ts, (vs.map fun v => core.map fun m => m.addV v).flatten.mapM M4.jones = .ok ts →
    ∃ bs, GeneralPositions.blocks core.length setI ((vs.map fun v => core.map fun m => m.addV v).zip vs) = .ok bs ∧
      (vs ≠ [] → bs ≠ []) ∧
      M4.joinWith ['\n'] bs = M4.joinWith ['\n'] (expectedLines (setI * core.length + 1) (cut core.length vs ts)) := by
  induction vs generalizing setI with
  | nil =>
    refine ⟨fun e h => ?_, fun ts _ => ⟨[], rfl, fun h => absurd rfl h, rfl⟩⟩
    cases h
  | cons v vs ih =>
    obtain ⟨ihe, iho⟩ := ih (setI + 1)
    rw [List.map_cons, List.flatten_cons, List.zip_cons_cons, mapM_append_eq]
    unfold GeneralPositions.blocks
    rw [numberedLines_ok]
    cases ha : (core.map fun m => m.addV v).mapM M4.jones with
    | error e =>
      constructor
      · intro e' h; cases h; rfl
      · intro ts h; cases h
    | ok a =>
      cases hb : (vs.map fun v => core.map fun m => m.addV v).flatten.mapM M4.jones with
      | error e =>
        constructor
        · intro e' h
          cases h
          rw [ihe e hb]
          rfl
        · intro ts h; cases h
      | ok b =>
        constructor
        · intro e' h; cases h
        intro ts h
        cases h
        obtain ⟨bs, h1, h2, h3⟩ := iho b hb
        have hlen : a.length = core.length := by rw [mapM_length ha, List.length_map]
        rw [h1]
        refine ⟨_, rfl, fun _ => by simp, ?_⟩
        simp only [cut, expectedLines]
        rw [List.take_left' hlen, List.drop_left' hlen]
        have e1 : M4.joinWith ['\n'] [GeneralPositions.heading v,
            M4.joinWith ['\n'] ((List.range a.length).zipWith (fun i t => lineText (setI * core.length + 1 + i) t) a)]
            = M4.joinWith ['\n'] (GeneralPositions.heading v :: setLines (setI * core.length + 1) a) := by
          rw [joinWith_setLines, joinWith_cons _ _ (setLines_ne _ _)]; rfl
        have e2 : (setI + 1) * core.length + 1 = setI * core.length + 1 + a.length := by
          rw [hlen, Nat.add_mul, Nat.one_mul]; omega
        rw [e2] at h3
        cases vs with
        | nil =>
          cases h1
          simp only [cut, expectedLines, List.append_nil]
          exact e1
        | cons w ws =>
          have hbs := h2 (by simp)
          rw [joinWith_cons _ _ hbs, h3, e1]
          have hne : expectedLines (setI * core.length + 1 + a.length) (cut core.length (w :: ws) b) ≠ [] := by
            simp [cut, expectedLines]
          rw [joinWith_append _ (by simp) hne]

/-- C41. `text_format` and `pure_txt` panic together; otherwise `pure_txt` has (number of translations) x (core size)
texts, and `text_format` is, line by line, each translation's heading followed by its texts from `pure_txt`, numbered
consecutively from 1 through all sets. -/
theorem text_listing (g : GeneralPositions) :
    (∀ e, g.pureTxt = .error e → g.textFormat = .error e) ∧
    ∀ ts, g.pureTxt = .ok ts →
      ts.length = g.latticeTranslations.length * g.numOfGeneralPos ∧
      g.textFormat = .ok (M4.joinWith ['\n']
        (expectedLines 1 (cut g.numOfGeneralPos g.latticeTranslations ts))) := by
  obtain ⟨h1, h2⟩ := blocks_eq g.corePositionSet 0 g.latticeTranslations
  constructor
  · intro e he
    unfold GeneralPositions.textFormat
    have := h1 e he
    unfold GeneralPositions.deriveFullSets
    rw [this]
    rfl
  · intro ts hts
    constructor
    · rw [mapM_length hts]
      unfold GeneralPositions.deriveFullSets GeneralPositions.numOfGeneralPos
      generalize g.latticeTranslations = vs
      induction vs with
      | nil => simp
      | cons v vs ih =>
        rw [List.map_cons, List.flatten_cons, List.length_append, ih, List.length_map, List.length_cons, Nat.add_mul]
        omega
    · obtain ⟨bs, hb, _, hj⟩ := h2 ts hts
      unfold GeneralPositions.textFormat GeneralPositions.deriveFullSets
      rw [hb]
      change Except.ok _ = _
      rw [hj, Nat.zero_mul, Nat.zero_add]
      rfl

/-- The texts themselves: the `k`-th text of `pure_txt` is the text of the `k`-th operation. -/
theorem pure_txt_texts (g : GeneralPositions) (ts : List (List Char)) (h : g.pureTxt = .ok ts) (k : Nat) (m : M4)
    (hm : g.deriveFullSets.flatten[k]? = some m) : ∃ t, ts[k]? = some t ∧ m.jones = .ok t := by
  unfold GeneralPositions.pureTxt at h
  generalize g.deriveFullSets.flatten = l at h hm
  induction l generalizing ts k with
  | nil => cases hm
  | cons a l ih =>
    rw [List.mapM_cons] at h
    cases ha : a.jones with
    | error e => rw [ha] at h; cases h
    | ok t =>
      cases hl : l.mapM M4.jones with
      | error e => rw [ha, hl] at h; cases h
      | ok ts' =>
        rw [ha, hl] at h
        cases h
        cases k with
        | zero => cases hm; exact ⟨t, rfl, ha⟩
        | succ k => exact ih ts' k hl hm

/-- The listing never panics when the rotations are symmetries of a cubic or hexagonal cell. -/
theorem text_listing_total (g : GeneralPositions) (h : ∀ m ∈ g.corePositionSet, m.rot.Small) :
    ∃ ts, g.pureTxt = .ok ts := by
  unfold GeneralPositions.pureTxt
  have h' : ∀ m ∈ g.deriveFullSets.flatten, m.rot.Small := by
    intro m hm
    obtain ⟨set, hset, hm⟩ := List.mem_flatten.1 hm
    obtain ⟨v, hv, c, hc, rfl⟩ := mem_full.1 ⟨set, hset, hm⟩
    exact h c hc
  generalize g.deriveFullSets.flatten = l at h'
  induction l with
  | nil => exact ⟨[], rfl⟩
  | cons a l ih =>
    obtain ⟨t, ht, _⟩ := jones_read a (h' a (List.mem_cons_self ..))
    obtain ⟨ts, hts⟩ := ih (fun m hm => h' m (List.mem_cons_of_mem _ hm))
    exact ⟨t :: ts, by rw [List.mapM_cons, ht, hts]; rfl⟩

/-- A sample set: two translations, two operations. -/
def sampleSet : GeneralPositions := ⟨[V3.zero, ⟨6, 6, 6⟩], [M4.identity, ⟨⟨0, -1, 0, 1, 0, 0, 0, 0, 1⟩, ⟨0, 0, 3⟩, V3.zero, 1⟩]⟩

example : sampleSet.textFormat = .ok
    "[0, 0, 0] + set\n1, x,y,z\n2, -y,x,z+1/4\n[1/2, 1/2, 1/2] + set\n3, x+1/2,y+1/2,z+1/2\n4, -y+1/2,x+1/2,z+3/4".toList := by
  decide +kernel

example : ∀ m ∈ sampleSet.corePositionSet, m.rot.Small := by unfold M3.Small; decide

end Verif
