import Mathlib.Tactic.Linarith
import Mathlib.Tactic.FieldSimp
import Verif.Proofs.Certificate
import Verif.Spec.CrystalClass

/-! # Groups described by an explicit list, and invariants under a change of origin -/

namespace Verif

/-- The list describes the group of the symbol. -/
structure Described (n : HallSymbolNotation) (L : List M4) : Prop where
  cert : ∃ ms, n.seitzMatrices = some ms ∧ Certificate n ms L
  inGroup : ∀ m ∈ L, m.Affine ∧ InGroup n m

namespace Described

variable {n n' : HallSymbolNotation} {L L' : List M4}

theorem consistent (h : Described n L) : Consistent n := by
  obtain ⟨ms, h1, h2⟩ := h.cert
  exact h2.consistent h1

theorem rots (h : Described n L) : (L.map M4.rot).Nodup := by
  obtain ⟨ms, h1, h2⟩ := h.cert
  exact h2.rots

theorem mem_iff (h : Described n L) (m : M4) :
    SpaceGroup n m.act ↔ ∃ c ∈ L, c.rot = m.rot ∧ LatCong n.latticeSymbol m.tr c.tr := by
  obtain ⟨ms, h1, h2⟩ := h.cert
  constructor
  · intro hm
    exact h2.listed h1 hm
  · rintro ⟨c, hc, hr, ht⟩
    obtain ⟨τ, hτ, e⟩ := eq_lattice_comp hr.symm ht
    rw [e]
    exact (SpaceGroup.lattice hτ).comp (h.inGroup c hc).2

theorem pointGroup (h : Described n L) : PointGroup n = rotSet L := by
  obtain ⟨ms, h1, h2⟩ := h.cert
  refine Set.Subset.antisymm (h2.pointGroup_subset h1) ?_
  rintro r ⟨m, hm, rfl⟩
  exact ⟨m.act, (h.inGroup m hm).2, m, rfl, rfl⟩

theorem card (h : Described n L) : (PointGroup n).Finite ∧ (PointGroup n).ncard = L.length := by
  rw [h.pointGroup]
  refine ⟨rotSet_finite _, ?_⟩
  have hs : rotSet L = ((L.map M4.rot).toFinset : Set M3) := by
    ext r; simp [rotSet]
  rw [hs, Set.ncard_coe_finset, List.toFinset_card_of_nodup h.rots, List.length_map]

/-- Two descriptions of groups with the same rotations list the same rotations. -/
theorem perm (h : Described n L) (h' : Described n' L') (e : PointGroup n = PointGroup n') :
    (L.map M4.rot).Perm (L'.map M4.rot) := by
  rw [h.pointGroup, h'.pointGroup] at e
  rw [List.perm_ext_iff_of_nodup h.rots h'.rots]
  intro r
  have := Set.ext_iff.1 e r
  simp only [rotSet, Set.mem_ofPred_eq] at this
  simp only [List.mem_map]
  exact this

end Described

/-! ## Change of origin -/

theorem movedBy_act (q : Pt) (m g : M4) (e : movedBy q m.act = g.act) :
    g.rot = m.rot ∧
    (g.tr.x : ℚ) = m.tr.x + 12 * (q.x - (m.rot.m11 * q.x + m.rot.m12 * q.y + m.rot.m13 * q.z)) ∧
    (g.tr.y : ℚ) = m.tr.y + 12 * (q.y - (m.rot.m21 * q.x + m.rot.m22 * q.y + m.rot.m23 * q.z)) ∧
    (g.tr.z : ℚ) = m.tr.z + 12 * (q.z - (m.rot.m31 * q.x + m.rot.m32 * q.y + m.rot.m33 * q.z)) := by
  have h0 := congrFun e ⟨0, 0, 0⟩
  have hx := congrFun e ⟨1, 0, 0⟩
  have hy := congrFun e ⟨0, 1, 0⟩
  have hz := congrFun e ⟨0, 0, 1⟩
  simp only [movedBy, M4.act, Pt.mk.injEq] at h0 hx hy hz
  obtain ⟨a1, a2, a3⟩ := h0
  obtain ⟨b1, b2, b3⟩ := hx
  obtain ⟨c1, c2, c3⟩ := hy
  obtain ⟨d1, d2, d3⟩ := hz
  refine ⟨?_, ?_, ?_, ?_⟩
  · ext <;> apply Int.cast_injective (α := ℚ) <;> linarith
  · linarith
  · linarith
  · linarith

theorem movedBy_inverse (q : Pt) (f : Pt → Pt) : movedBy ⟨-q.x, -q.y, -q.z⟩ (movedBy q f) = f := by
  funext p
  have e : (⟨p.x - -q.x - q.x, p.y - -q.y - q.y, p.z - -q.z - q.z⟩ : Pt) = p := by
    ext <;> simp
  simp only [movedBy, e]
  ext <;> simp

theorem movedBy_inverse' (q : Pt) (f : Pt → Pt) : movedBy q (movedBy ⟨-q.x, -q.y, -q.z⟩ f) = f := by
  have := movedBy_inverse ⟨-q.x, -q.y, -q.z⟩ f
  simpa using this

theorem movedBy_translation (q : Pt) {f : Pt → Pt} (h : IsTranslation f) : movedBy q f = f := by
  obtain ⟨t, ht⟩ := h
  funext p
  simp only [movedBy, ht]
  ext <;> simp <;> ring

theorem SameUpToOrigin.symm {n n' : HallSymbolNotation} (h : SameUpToOrigin n n') : SameUpToOrigin n' n := by
  obtain ⟨q, h⟩ := h
  refine ⟨⟨-q.x, -q.y, -q.z⟩, fun f => ?_⟩
  rw [h, movedBy_inverse']

/-- The lattices are the same. -/
theorem sameUpToOrigin_lattice {n n' : HallSymbolNotation} (hn : Consistent n) (hn' : Consistent n')
    (h : SameUpToOrigin n n') : n.latticeSymbol.char = n'.latticeSymbol.char := by
  have key : ∀ {n n' : HallSymbolNotation}, Consistent n' → SameUpToOrigin n n' →
      ∀ v ∈ n.latticeSymbol.translations, LatCong n'.latticeSymbol v V3.zero := by
    rintro n n' hn' ⟨q, h⟩ v hv
    have h1 := (h _).1 (SpaceGroup.centring (n := n) hv)
    have ht : IsTranslation (fun p : Pt => p.addTwelfths v) := ⟨⟨v.x / 12, v.y / 12, v.z / 12⟩, fun p => rfl⟩
    rw [movedBy_translation q ht] at h1
    have h2 := hn' _ h1 ht
    rw [← trMat_act, isLatticeTranslation_iff] at h2
    exact h2
  have k1 := key hn' h
  have k2 := key hn h.symm
  unfold LatCong LatticeSymbol.translations at k1 k2
  revert k1 k2
  generalize n.latticeSymbol.char = c
  generalize n'.latticeSymbol.char = c'
  cases c <;> cases c' <;> decide +kernel

theorem sameUpToOrigin_pointGroup {n n' : HallSymbolNotation} (h : SameUpToOrigin n n') :
    PointGroup n = PointGroup n' := by
  have key : ∀ {n n' : HallSymbolNotation}, SameUpToOrigin n n' → PointGroup n ⊆ PointGroup n' := by
    rintro n n' ⟨q, h⟩ _ ⟨f, hf, m, rfl, rfl⟩
    have h1 := (h _).1 hf
    obtain ⟨g, e, _, _⟩ := h1.isOp
    have h2 := movedBy_act q m g e
    exact ⟨_, h1, g, h2.1, e⟩
  exact Set.Subset.antisymm (key h) (key h.symm)

/-! ## Invariant functionals -/

/-- A functional: integer row vectors attached to rotations. -/
abbrev Functional := List (M3 × V3)

/-- Row vector times matrix. -/
def rowMul (u : V3) (a : M3) : V3 :=
  ⟨u.x * a.m11 + u.y * a.m21 + u.z * a.m31, u.x * a.m12 + u.y * a.m22 + u.z * a.m32,
   u.x * a.m13 + u.y * a.m23 + u.z * a.m33⟩

/-- The sum of `u - uR` over the functional. -/
def Functional.defect : Functional → V3
  | [] => V3.zero
  | (r, u) :: f => ((u.sub (rowMul u r)).add (Functional.defect f))

/-- The value on the translations of a list; nothing if a rotation is missing. -/
def Functional.value (L : List M4) : Functional → Option Int
  | [] => some 0
  | (r, u) :: f =>
    match findRot L r with
    | none => none
    | some m =>
      match Functional.value L f with
      | none => none
      | some v => some (V3.dot u m.tr + v)

/-- The functional is invariant: it takes multiples of 12 on lattice vectors, and kills `t ↦ t - Rt`. -/
def Functional.Good (c : Lattices) (f : Functional) : Bool :=
  f.all (fun p => c.translations.all fun v => V3.dot p.2 v % 12 == 0) && decide (f.defect = V3.zero)

theorem value_moved {n n' : HallSymbolNotation} {L L' : List M4} (hL : Described n L) (hL' : Described n' L') {q : Pt}
    (h : ∀ f, SpaceGroup n f ↔ SpaceGroup n' (movedBy q f)) (f : Functional)
    (hg : ∀ p ∈ f, ∀ v ∈ n'.latticeSymbol.translations, (12 : Int) ∣ V3.dot p.2 v) :
    (Functional.value L f = none ∧ Functional.value L' f = none) ∨
    ∃ v v' k : Int, Functional.value L f = some v ∧ Functional.value L' f = some v' ∧
      (v' : ℚ) = v + 12 * (f.defect.x * q.x + f.defect.y * q.y + f.defect.z * q.z) + 12 * k := by
  have hpg := sameUpToOrigin_pointGroup ⟨q, h⟩
  rw [hL.pointGroup, hL'.pointGroup] at hpg
  induction f with
  | nil => exact .inr ⟨0, 0, 0, rfl, rfl, by simp [Functional.defect]⟩
  | cons p f ih =>
    obtain ⟨r, u⟩ := p
    have ih' := ih (fun p hp => hg p (List.mem_cons_of_mem _ hp))
    unfold Functional.value
    cases hm : findRot L r with
    | none =>
      left
      cases hm' : findRot L' r with
      | none => exact ⟨rfl, rfl⟩
      | some m' =>
        obtain ⟨h1, h2⟩ := findRot_some hm'
        have : r ∈ rotSet L := by rw [hpg]; exact ⟨m', h1, h2⟩
        obtain ⟨m, h3, h4⟩ := this
        exact absurd h4 (findRot_none hm m h3)
    | some m =>
      obtain ⟨h1, h2⟩ := findRot_some hm
      have h3 := (h _).1 ((hL.inGroup m h1).2)
      obtain ⟨g, e, _, _⟩ := h3.isOp
      obtain ⟨g1, g2, g3, g4⟩ := movedBy_act q m g e
      rw [e] at h3
      obtain ⟨c, hc, hcr, w, hw, hwc⟩ := (hL'.mem_iff g).1 h3
      have hfc : findRot L' r = some c := by
        have := findRot_of_mem hL'.rots hc
        rwa [hcr, g1, h2] at this
      rw [hfc]
      rcases ih' with ⟨i1, i2⟩ | ⟨v, v', k, i1, i2, i3⟩
      · left
        simp only [i1, i2]
        trivial
      · right
        simp only [i1, i2]
        obtain ⟨a1, a2, a3⟩ := hwc
        obtain ⟨b1, hb1⟩ := a1
        obtain ⟨b2, hb2⟩ := a2
        obtain ⟨b3, hb3⟩ := a3
        obtain ⟨b4, hb4⟩ := hg (r, u) (List.mem_cons_self ..) w hw
        simp only [V3.dot, V3.add_x, V3.add_y, V3.add_z] at hb1 hb2 hb3 hb4
        refine ⟨_, _, k - (u.x * b1 + u.y * b2 + u.z * b3) - b4, rfl, rfl, ?_⟩
        have q1 : (g.tr.x : ℚ) - (c.tr.x + w.x) = 12 * b1 := by exact_mod_cast hb1
        have q2 : (g.tr.y : ℚ) - (c.tr.y + w.y) = 12 * b2 := by exact_mod_cast hb2
        have q3 : (g.tr.z : ℚ) - (c.tr.z + w.z) = 12 * b3 := by exact_mod_cast hb3
        have q4 : (u.x : ℚ) * w.x + u.y * w.y + u.z * w.z = 12 * b4 := by exact_mod_cast hb4
        rw [h2] at g2 g3 g4
        have e1 : (c.tr.x : ℚ) = g.tr.x - w.x - 12 * b1 := by linarith
        have e2 : (c.tr.y : ℚ) = g.tr.y - w.y - 12 * b2 := by linarith
        have e3 : (c.tr.z : ℚ) = g.tr.z - w.z - 12 * b3 := by linarith
        simp only [V3.dot, Functional.defect, rowMul, V3.add_x, V3.add_y, V3.add_z, V3.sub_x, V3.sub_y, V3.sub_z]
        push_cast
        rw [i3, e1, e2, e3, g2, g3, g4]
        have q5 : (u.x : ℚ) * w.x = 12 * b4 - u.y * w.y - u.z * w.z := by linarith
        linear_combination -q4

/-- A functional that is good takes the same values modulo 12. -/
theorem value_invariant {n n' : HallSymbolNotation} {L L' : List M4} (hL : Described n L) (hL' : Described n' L')
    (h : SameUpToOrigin n n') {f : Functional} (hg : f.Good n'.latticeSymbol.char = true) :
    (Functional.value L f).map (· % 12) = (Functional.value L' f).map (· % 12) := by
  obtain ⟨q, h⟩ := h
  simp only [Functional.Good, Bool.and_eq_true, List.all_eq_true, beq_iff_eq, decide_eq_true_eq] at hg
  rcases value_moved hL hL' h f (fun p hp v hv => Int.dvd_of_emod_eq_zero (hg.1 p hp v hv)) with
    ⟨h1, h2⟩ | ⟨v, v', k, h1, h2, h3⟩
  · rw [h1, h2]
  · rw [h1, h2]
    rw [hg.2] at h3
    simp only [V3.zero, Int.cast_zero, zero_mul, add_zero, mul_zero] at h3
    have : v' = v + 12 * k := by exact_mod_cast h3
    simp only [Option.map_some, Option.some.injEq]
    omega

/-- A number for a rotation with entries -1, 0, 1. -/
def rotCode (r : M3) : Nat :=
  r.toList.foldl (fun acc v => 3 * acc + (v + 1).toNat) 0

/-- A number for a set of rotations. -/
def rotsKey (L : List M4) : Nat := ((L.map M4.rot).map fun r => 2 ^ (rotCode r % 61)).sum

/-- A number for a lattice letter. -/
def latticeIndex : Lattices → Nat
  | .P => 0 | .A => 1 | .B => 2 | .C => 3 | .I => 4 | .R => 5 | .F => 6

/-- A digit for the value of a functional. -/
def sigDigit : Option Int → Nat
  | none => 12
  | some v => (v % 12).toNat

/-- A table of functionals for pairs (lattice, number of the rotations). -/
abbrev FunctionalTable := List (Lattices × Nat × List Functional)

/-- The functionals used for a lattice and a set of rotations. -/
def FunctionalTable.find : FunctionalTable → Lattices → Nat → List Functional
  | [], _, _ => []
  | (c, k, fs) :: t, c', k' => bif Nat.beq k k' && decide (c = c') then fs else FunctionalTable.find t c' k'

/-- All functionals are good. -/
def FunctionalTable.Good (t : FunctionalTable) : Bool := t.all fun e => e.2.2.all fun f => f.Good e.1

theorem FunctionalTable.find_good {t : FunctionalTable} (h : t.Good = true) (c : Lattices) (k : Nat) :
    ∀ f ∈ t.find c k, f.Good c = true := by
  induction t with
  | nil => simp [FunctionalTable.find]
  | cons e t ih =>
    obtain ⟨c', k', fs⟩ := e
    simp only [FunctionalTable.Good, List.all_cons, Bool.and_eq_true, List.all_eq_true] at h
    unfold FunctionalTable.find
    cases hb : (Nat.beq k' k && decide (c' = c)) with
    | true =>
      simp only [Bool.and_eq_true, decide_eq_true_eq] at hb
      rw [← hb.2]
      exact h.1
    | false =>
      refine ih ?_
      unfold FunctionalTable.Good
      simp only [List.all_eq_true]
      exact h.2

/-- The number of a group: lattice, rotations, values of the functionals. -/
def groupKey (t : FunctionalTable) (n : HallSymbolNotation) (L : List M4) : Nat :=
  let c := n.latticeSymbol.char
  let k := rotsKey L
  (((t.find c k).map fun f => sigDigit (Functional.value L f)).foldl (fun acc d => 13 * acc + d) 0 * 2 ^ 64 + k) * 7
    + latticeIndex c

/-- Groups that agree after a change of origin have the same number. -/
theorem groupKey_invariant {t : FunctionalTable} (ht : t.Good = true) {n n' : HallSymbolNotation} {L L' : List M4}
    (hL : Described n L) (hL' : Described n' L') (h : SameUpToOrigin n n') : groupKey t n L = groupKey t n' L' := by
  have hc := sameUpToOrigin_lattice hL.consistent hL'.consistent h
  have hk : rotsKey L = rotsKey L' :=
    ((hL.perm hL' (sameUpToOrigin_pointGroup h)).map _).sum_eq
  unfold groupKey
  simp only [hc, hk]
  have : ((t.find n'.latticeSymbol.char (rotsKey L')).map fun f => sigDigit (Functional.value L f)) =
      (t.find n'.latticeSymbol.char (rotsKey L')).map fun f => sigDigit (Functional.value L' f) := by
    apply List.map_congr_left
    intro f hf
    have := value_invariant hL hL' h (FunctionalTable.find_good ht _ _ f hf)
    cases hv : Functional.value L f <;> cases hv' : Functional.value L' f <;> rw [hv, hv'] at this <;>
      simp only [Option.map_none, Option.map_some] at this <;> first
      | rfl
      | (cases this; done)
      | (simp only [sigDigit]; rw [Option.some.inj this])
  rw [this]

end Verif
