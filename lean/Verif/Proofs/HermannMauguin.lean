import Verif.Spec.HermannMauguin
import Verif.Proofs.Iterate
import Verif.Proofs.RowFacts
import Verif.Proofs.TypeInvariant

/-! # Deciding whether a Hermann-Mauguin name fits a group given by a list -/

namespace Verif.HM

variable {n n' : HallSymbolNotation} {L L' : List M4}

/-! ## Turns -/

/-- The type of a rotation of order `n`. -/
def rotKind : Nat → Option RotationType
  | 1 => some .E
  | 2 => some .N2
  | 3 => some .N3
  | 4 => some .N4
  | 6 => some .N6
  | _ => none

/-- Boolean equality of vectors. -/
def vecB (a b : V3) : Bool := intEqB a.x b.x && intEqB a.y b.y && intEqB a.z b.z

theorem vecB_iff {a b : V3} : vecB a b = true ↔ a = b := by
  simp only [vecB, Bool.and_eq_true, intEqB_iff, V3.ext_iff, and_assoc]

/-- Boolean form of `Turn`. -/
def turnB (d : V3) (k : Nat) (r : M3) : Bool :=
  match rotKind k with
  | none => false
  | some t => typeB t r && vecB (r.mulVec d) d && (Nat.ble k 2 || [x, y, z].any fun e => decide (0 < triple d e (r.mulVec e)))

theorem turnB_iff {d : V3} {k : Nat} {r : M3} (hr : r.FiniteOrder) (hk : (rotKind k).isSome = true) :
    turnB d k r = true ↔ Turn d k r := by
  obtain ⟨t, ht⟩ := Option.isSome_iff_exists.1 hk
  have hkt : t.improper = false ∧ t.fold = k := by
    unfold rotKind at ht
    split at ht <;> cases ht <;> exact ⟨rfl, rfl⟩
  have h1 := (typeB_iff (t := t) (r := r)).trans (isKind_iff hr t).symm
  unfold M3.IsKind at h1
  rw [if_neg (by rw [hkt.1]; exact Bool.false_ne_true), hkt.2] at h1
  unfold turnB Turn
  simp only [ht, Bool.and_eq_true, h1, vecB_iff, Bool.or_eq_true, Nat.ble_eq, List.any_eq_true, decide_eq_true_eq]
  constructor
  · rintro ⟨⟨⟨a, b⟩, c⟩, d⟩
    exact ⟨a, b, c, fun h => d.resolve_left (by omega)⟩
  · rintro ⟨a, b, c, d⟩
    refine ⟨⟨⟨a, b⟩, c⟩, ?_⟩
    by_cases h : 2 < k
    · exact .inr (d h)
    · exact .inl (by omega)

theorem finiteOrder_neg {r : M3} (hr : r.FiniteOrder) : r.neg.FiniteOrder := by
  obtain ⟨k, hk, e⟩ := hr
  refine ⟨2 * k, by omega, ?_⟩
  rw [M3.neg_pow_two_mul, Nat.mul_comm, M3.pow_mul, e, M3.one_pow]

/-- The orders in the symbol are crystallographic. -/
def Part.valid : Part → Bool
  | .axis k _ => (rotKind k).isSome
  | .bar k => (rotKind k).isSome
  | .plane _ => true

/-- Boolean form of `Part.Linear`. -/
def Part.linearB (d : V3) (r : M3) : Part → Bool
  | .axis k _ => turnB d k r
  | .bar k => turnB d k r.neg
  | .plane _ => turnB d 2 r.neg

theorem Part.linearB_iff {p : Part} (hp : p.valid = true) {d : V3} {r : M3} (hr : r.FiniteOrder) :
    p.linearB d r = true ↔ p.Linear d r := by
  cases p with
  | axis k s => exact turnB_iff hr hp
  | bar k => exact turnB_iff (finiteOrder_neg hr) hp
  | plane g => exact turnB_iff (k := 2) (finiteOrder_neg hr) rfl

/-! ## Iterating an operation -/

theorem iterate_translation {m : M4} {k : Nat} (hk : m.rot.pow k = M3.one) (v : V3) :
    (∀ p, m.act^[k] p = p.addTwelfths v) ↔ (nsum m.rot k).mulVec m.tr = v := by
  constructor
  · intro h
    have e : M4.act ⟨m.rot.pow k, (nsum m.rot k).mulVec m.tr, V3.zero, 1⟩ = (trMat v).act := by
      funext p
      rw [← act_iterate, h, trMat_act]
    exact (M4.act_inj e).2
  · intro h p
    rw [act_iterate, hk, h]
    exact congrFun (trMat_act v) p

/-! ## Images of integer matrices -/

/-- Residue vectors modulo `k` to try. -/
def residues (N : M3) (k : Nat) : List V3 :=
  bif N.toList.all fun v => Nat.beq (v % k).toNat 0 then [V3.zero]
  else (List.range k).flatMap fun (a : Nat) => (List.range k).flatMap fun (b : Nat) => (List.range k).map fun (c : Nat) => ⟨(a : Nat), (b : Nat), (c : Nat)⟩

/-- `u` is `N` times an integer vector. -/
def imageB (N : M3) (k : Nat) (u : V3) : Bool :=
  vecB (N.mulVec u) (V3.smul k u) && (residues N k).any fun w =>
    let e := u.sub (N.mulVec w)
    Nat.beq (e.x % k).toNat 0 && Nat.beq (e.y % k).toNat 0 && Nat.beq (e.z % k).toNat 0

theorem emod_beq {v : Int} {k : Nat} (hk : 0 < k) : Nat.beq (v % k).toNat 0 = true ↔ (k : Int) ∣ v := by
  have h1 := Int.emod_nonneg v (b := (k : Int)) (by omega)
  rw [Nat.beq_eq, Int.dvd_iff_emod_eq_zero]
  omega

theorem imageB_iff {N : M3} {k : Nat} (hk : 0 < k) (hN : ∀ v, N.mulVec (N.mulVec v) = V3.smul k (N.mulVec v)) {u : V3} :
    imageB N k u = true ↔ ∃ w, N.mulVec w = u := by
  unfold imageB
  simp only [Bool.and_eq_true, vecB_iff, List.any_eq_true, emod_beq hk]
  constructor
  · rintro ⟨h1, w, _, ⟨⟨a, ha⟩, ⟨b, hb⟩⟩, ⟨c, hc⟩⟩
    refine ⟨w.add ⟨a, b, c⟩, ?_⟩
    have hq : V3.smul k ⟨a, b, c⟩ = u.sub (N.mulVec w) := by
      ext
      · exact ha.symm
      · exact hb.symm
      · exact hc.symm
    have h2 := hN w
    have e : V3.smul k (N.mulVec ⟨a, b, c⟩) = V3.smul k (u.sub (N.mulVec w)) := by
      have e1 : V3.smul k (N.mulVec ⟨a, b, c⟩) = N.mulVec (V3.smul k ⟨a, b, c⟩) := by
        ext <;> simp only [V3.smul, M3.mulVec] <;> ring
      have e2 : N.mulVec (u.sub (N.mulVec w)) = (N.mulVec u).sub (N.mulVec (N.mulVec w)) := by
        ext <;> simp only [V3.sub, M3.mulVec] <;> ring
      rw [e1, hq, e2, h1, h2]
      ext <;> simp only [V3.sub, V3.smul] <;> ring
    have hk0 : (k : Int) ≠ 0 := by omega
    have e' : N.mulVec ⟨a, b, c⟩ = u.sub (N.mulVec w) := by
      have := V3.ext_iff.1 e
      simp only [V3.smul] at this
      ext
      · exact mul_left_cancel₀ hk0 this.1
      · exact mul_left_cancel₀ hk0 this.2.1
      · exact mul_left_cancel₀ hk0 this.2.2
    have e3 : N.mulVec (w.add ⟨a, b, c⟩) = (N.mulVec w).add (N.mulVec ⟨a, b, c⟩) := by
      ext <;> simp only [V3.add, M3.mulVec] <;> ring
    rw [e3, e']
    ext <;> simp only [V3.add, V3.sub] <;> ring
  · rintro ⟨w, rfl⟩
    refine ⟨hN w, ?_⟩
    unfold residues
    cases hz : (N.toList.all fun v => Nat.beq (v % k).toNat 0) with
    | true =>
      simp only [List.all_eq_true, emod_beq hk, M3.toList, List.mem_cons, List.not_mem_nil, or_false, forall_eq_or_imp, forall_eq] at hz
      obtain ⟨⟨a1, h1⟩, ⟨a2, h2⟩, ⟨a3, h3⟩, ⟨b1, h4⟩, ⟨b2, h5⟩, ⟨b3, h6⟩, ⟨c1, h7⟩, ⟨c2, h8⟩, ⟨c3, h9⟩⟩ := hz
      refine ⟨V3.zero, by simp, ⟨⟨a1 * w.x + a2 * w.y + a3 * w.z, ?_⟩, ⟨b1 * w.x + b2 * w.y + b3 * w.z, ?_⟩⟩,
        ⟨c1 * w.x + c2 * w.y + c3 * w.z, ?_⟩⟩ <;> simp only [V3.sub, M3.mulVec, V3.zero, h1, h2, h3, h4, h5, h6, h7, h8, h9] <;> ring
    | false =>
      have hk' : (k : Int) ≠ 0 := by omega
      have hmod : ∀ v : Int, ∃ i : Nat, i < k ∧ ∃ j : Int, v = i + k * j := by
        intro v
        refine ⟨(v % k).toNat, ?_, v / k, ?_⟩
        · have h1 := Int.emod_nonneg v hk'
          have h2 := Int.emod_lt_of_pos v (show (0 : Int) < k by omega)
          omega
        · have h1 := Int.emod_nonneg v hk'
          rw [Int.toNat_of_nonneg h1]
          exact (Int.emod_add_mul_ediv v k).symm
      obtain ⟨i1, q1, j1, e1⟩ := hmod w.x
      obtain ⟨i2, q2, j2, e2⟩ := hmod w.y
      obtain ⟨i3, q3, j3, e3⟩ := hmod w.z
      refine ⟨⟨i1, i2, i3⟩, ?_, ⟨⟨N.m11 * j1 + N.m12 * j2 + N.m13 * j3, ?_⟩, ⟨N.m21 * j1 + N.m22 * j2 + N.m23 * j3, ?_⟩⟩,
        ⟨N.m31 * j1 + N.m32 * j2 + N.m33 * j3, ?_⟩⟩
      · simp only [cond_false, List.mem_flatMap, List.mem_map, List.mem_range]
        exact ⟨i1, q1, i2, q2, i3, q3, rfl⟩
      all_goals
        simp only [V3.sub, M3.mulVec, e1, e2, e3]
        ring

/-! ## Operations with a given shift -/

/-- Some operation with rotation `r` and translation congruent to `t` has the shift `v` after `k` applications. -/
def shiftB (l : LatticeSymbol) (r : M3) (t : V3) (k : Nat) (v : V3) : Bool :=
  let N := nsum r k
  l.translations.any fun w =>
    let u := v.sub (N.mulVec (t.add w))
    Nat.beq (u.x % 12).toNat 0 && Nat.beq (u.y % 12).toNat 0 && Nat.beq (u.z % 12).toNat 0 && imageB N k ⟨u.x / 12, u.y / 12, u.z / 12⟩

theorem nsum_sq {r : M3} (hr : r ∈ cubicList ∨ r ∈ hexList) {k : Nat} (hk : k ∈ [1, 2, 3, 4, 6]) (h : r.pow k = M3.one) (v : V3) :
    (nsum r k).mulVec ((nsum r k).mulVec v) = V3.smul k ((nsum r k).mulVec v) := by
  have key : (nsum r k).mul (nsum r k) = (nsum r k).map fun x => k * x := by
    have k1 : ∀ r ∈ cubicList, ∀ k ∈ [1, 2, 3, 4, 6], r.pow k = M3.one →
        (nsum r k).mul (nsum r k) = (nsum r k).map fun x => (k : Int) * x := by decide +kernel
    have k2 : ∀ r ∈ hexList, ∀ k ∈ [1, 2, 3, 4, 6], r.pow k = M3.one →
        (nsum r k).mul (nsum r k) = (nsum r k).map fun x => (k : Int) * x := by decide +kernel
    exact hr.elim (fun hr => k1 r hr k hk h) (fun hr => k2 r hr k hk h)
  rw [M3.mulVec_mulVec, key]
  ext <;> simp only [M3.map, M3.mulVec, V3.smul] <;> ring

theorem shiftB_iff {l : LatticeSymbol} {r : M3} (hr : r ∈ cubicList ∨ r ∈ hexList) {k : Nat} (hk : k ∈ [1, 2, 3, 4, 6])
    (h : r.pow k = M3.one) (t v : V3) :
    shiftB l r t k v = true ↔ ∃ t', LatCong l t' t ∧ (nsum r k).mulVec t' = v := by
  have hk0 : 0 < k := by
    simp only [List.mem_cons, List.not_mem_nil, or_false] at hk
    omega
  have lin : ∀ (N : M3) (a b : V3), N.mulVec (a.add (V3.smul 12 b)) = (N.mulVec a).add (V3.smul 12 (N.mulVec b)) := by
    intro N a b
    ext <;> simp only [V3.add, V3.smul, M3.mulVec] <;> ring
  have hd : ∀ u : Int, Nat.beq (u % 12).toNat 0 = true ↔ (12 : Int) ∣ u := fun u => emod_beq (k := 12) (by decide)
  unfold shiftB
  simp only [List.any_eq_true, Bool.and_eq_true, hd, imageB_iff hk0 (nsum_sq hr hk h)]
  constructor
  · rintro ⟨w, hw, ⟨⟨⟨d1, d2⟩, d3⟩, q, hq⟩⟩
    refine ⟨(t.add w).add (V3.smul 12 q), ⟨w, hw, ⟨q.x, ?_⟩, ⟨q.y, ?_⟩, ⟨q.z, ?_⟩⟩, ?_⟩
    · simp only [V3.add, V3.smul]; ring
    · simp only [V3.add, V3.smul]; ring
    · simp only [V3.add, V3.smul]; ring
    · rw [lin, hq]
      obtain ⟨a, ha⟩ := d1
      obtain ⟨b, hb⟩ := d2
      obtain ⟨c, hc⟩ := d3
      rw [V3.sub_x] at ha
      rw [V3.sub_y] at hb
      rw [V3.sub_z] at hc
      ext
      · rw [V3.add_x]; change _ + 12 * (V3.sub _ _).x.ediv 12 = _; rw [V3.sub_x]; change _ + 12 * ((_ : Int) / 12) = _; omega
      · rw [V3.add_y]; change _ + 12 * (V3.sub _ _).y.ediv 12 = _; rw [V3.sub_y]; change _ + 12 * ((_ : Int) / 12) = _; omega
      · rw [V3.add_z]; change _ + 12 * (V3.sub _ _).z.ediv 12 = _; rw [V3.sub_z]; change _ + 12 * ((_ : Int) / 12) = _; omega
  · rintro ⟨t', ⟨w, hw, ⟨a, ha⟩, ⟨b, hb⟩, ⟨c, hc⟩⟩, rfl⟩
    have e : t' = (t.add w).add (V3.smul 12 ⟨a, b, c⟩) := by
      ext <;> simp only [V3.add, V3.smul] at * <;> omega
    refine ⟨w, hw, ?_⟩
    have e2 : ((nsum r k).mulVec t').sub ((nsum r k).mulVec (t.add w)) = V3.smul 12 ((nsum r k).mulVec ⟨a, b, c⟩) := by
      rw [e, lin]
      ext <;> simp only [V3.add, V3.smul, V3.sub] <;> ring
    rw [e2]
    refine ⟨⟨⟨⟨_, rfl⟩, ⟨_, rfl⟩⟩, ⟨_, rfl⟩⟩, ⟨a, b, c⟩, ?_⟩
    ext <;> simp only [V3.smul] <;> omega

/-! ## Presence -/

/-- The rotations are symmetries of a cubic or hexagonal cell. -/
def Holohedral (L : List M4) : Prop := ∀ m ∈ L, m.rot ∈ cubicList ∨ m.rot ∈ hexList

theorem holohedral_finite {r : M3} (h : r ∈ cubicList ∨ r ∈ hexList) : r.FiniteOrder := by
  have k1 : ∀ r ∈ cubicList, r.pow 12 = M3.one := by decide +kernel
  have k2 : ∀ r ∈ hexList, r.pow 12 = M3.one := by decide +kernel
  exact ⟨12, by decide, h.elim (k1 r) (k2 r)⟩

/-- Boolean form of `Part.Shifts`, up to lattice translations. -/
def Part.shiftsB (l : LatticeSymbol) (sys : System) (d : V3) (m : M4) : Part → Bool
  | .axis k s => shiftB l m.rot m.tr k ⟨12 * s * d.x, 12 * s * d.y, 12 * s * d.z⟩
  | .bar _ => true
  | .plane g => (glides sys d g).any fun v => shiftB l m.rot m.tr 2 v

/-- Boolean form of `Present`. -/
def presentB (l : LatticeSymbol) (L : List M4) (sys : System) (d : V3) (p : Part) : Bool :=
  L.any fun m => p.linearB d m.rot && p.shiftsB l sys d m

theorem rotKind_mem {k : Nat} (h : (rotKind k).isSome = true) : k ∈ [1, 2, 3, 4, 6] := by
  unfold rotKind at h
  split at h <;> simp_all

theorem neg_turn_two {d : V3} {r : M3} (h : Turn d 2 r.neg) : r.pow 2 = M3.one := by
  have := h.2.1.2.1
  rw [show (2 : Nat) = 2 * 1 from rfl, M3.neg_pow_two_mul] at this
  exact this

theorem presentB_iff (hd : Described n L) (hL : Holohedral L) {sys : System} {d : V3} {p : Part} (hp : p.valid = true) :
    presentB n.latticeSymbol L sys d p = true ↔ Present n sys d p := by
  unfold presentB Present
  simp only [List.any_eq_true, Bool.and_eq_true]
  -- an operation of the group is a listed one up to a lattice translation
  have base : (∃ m : M4, SpaceGroup n m.act ∧ p.Linear d m.rot ∧ p.Shifts sys d m) ↔
      ∃ c ∈ L, p.Linear d c.rot ∧ ∃ t, LatCong n.latticeSymbol t c.tr ∧ p.Shifts sys d ⟨c.rot, t, V3.zero, 1⟩ := by
    constructor
    · rintro ⟨m, h1, h2, h3⟩
      obtain ⟨c, hc, e, ht⟩ := (hd.mem_iff m).1 h1
      refine ⟨c, hc, e ▸ h2, m.tr, ht, ?_⟩
      have : ∀ q, M4.act ⟨c.rot, m.tr, V3.zero, 1⟩ q = m.act q := M4.act_congr_rot_tr e rfl
      have this : M4.act ⟨c.rot, m.tr, V3.zero, 1⟩ = m.act := funext this
      cases p with
      | axis k s => unfold Part.Shifts at *; rw [this]; exact h3
      | bar k => trivial
      | plane g => unfold Part.Shifts at *; rw [this]; exact h3
    · rintro ⟨c, hc, h2, t, ht, h3⟩
      exact ⟨⟨c.rot, t, V3.zero, 1⟩, (hd.mem_iff _).2 ⟨c, hc, rfl, ht⟩, h2, h3⟩
  rw [base]
  refine exists_congr fun c => and_congr_right fun hc => ?_
  have hc' := hL c hc
  rw [Part.linearB_iff hp (holohedral_finite hc')]
  refine and_congr_right fun hl => ?_
  cases p with
  | bar k => exact ⟨fun _ => ⟨c.tr, .refl _ _, trivial⟩, fun _ => rfl⟩
  | axis k s =>
    have hk := hl.2.1.2.1
    change shiftB _ _ _ _ _ = true ↔ _
    rw [shiftB_iff hc' (rotKind_mem hp) hk]
    exact exists_congr fun t => and_congr_right fun _ => (iterate_translation (m := ⟨c.rot, t, V3.zero, 1⟩) hk _).symm
  | plane g =>
    have hk := neg_turn_two hl
    change (List.any _ _) = true ↔ _
    simp only [List.any_eq_true, shiftB_iff hc' (k := 2) (by decide) hk]
    constructor
    · rintro ⟨v, hv, t, ht, e⟩
      exact ⟨t, ht, v, hv, (iterate_translation (m := ⟨c.rot, t, V3.zero, 1⟩) hk _).2 e⟩
    · rintro ⟨t, ht, v, hv, e⟩
      exact ⟨v, hv, t, ht, (iterate_translation (m := ⟨c.rot, t, V3.zero, 1⟩) hk _).1 e⟩

/-! ## Generation -/

/-- Boolean membership. -/
def memB (r : M3) : List M3 → Bool
  | [] => false
  | a :: l => bif a.eqB r then true else memB r l

theorem memB_iff {r : M3} {l : List M3} : memB r l = true ↔ r ∈ l := by
  induction l with
  | nil => simp [memB]
  | cons a l ih =>
    unfold memB
    cases h : a.eqB r with
    | true => simp [M3.eqB_iff.1 h]
    | false =>
      have : a ≠ r := fun e => by rw [M3.eqB_iff.2 e] at h; cases h
      simp [ih, this.symm]

/-- The products of the generators: process the `k`-th element, `fuel` times. -/
def close (gs : List M3) : Nat → Nat → List M3 → List M3
  | 0, _, l => l
  | fuel + 1, k, l =>
    match l[k]? with
    | none => l
    | some a => close gs fuel (k + 1) (gs.foldl (fun l g => let p := a.mul g; bif memB p l then l else l ++ [p]) l)

theorem close_generated {S : Set M3} {gs : List M3} (hgs : ∀ g ∈ gs, g ∈ S) (fuel k : Nat) (l : List M3)
    (hl : ∀ r ∈ l, Generated S r) : ∀ r ∈ close gs fuel k l, Generated S r := by
  induction fuel generalizing k l with
  | zero => exact hl
  | succ fuel ih =>
    unfold close
    cases hk : l[k]? with
    | none => exact hl
    | some a =>
      refine ih _ _ ?_
      have ha := hl a (List.mem_of_getElem? hk)
      clear hk ih
      induction gs generalizing l with
      | nil => exact hl
      | cons g gs ih =>
        rw [List.foldl_cons]
        refine ih (fun g hg => hgs g (List.mem_cons_of_mem _ hg)) _ ?_
        dsimp only
        cases memB (a.mul g) l with
        | true => exact hl
        | false =>
          intro r hr
          rcases List.mem_append.1 hr with hr | hr
          · exact hl r hr
          · rw [List.mem_singleton.1 hr]
            exact ha.mul (hgs g (List.mem_cons_self ..))

theorem generated_closed {S : Set M3} {l : List M3} (h1 : M3.one ∈ l) (h : ∀ a ∈ l, ∀ g ∈ S, a.mul g ∈ l) {r : M3}
    (hr : Generated S r) : r ∈ l := by
  induction hr with
  | one => exact h1
  | mul _ hg ih => exact h _ ih _ hg

/-- The named rotations of a list. -/
def namedList (nm : Name) (L : List M4) : List M3 :=
  (L.map M4.rot).filter fun r => nm.parts.any fun e => e.2.linearB e.1 r

/-- All symbols of the name are valid. -/
def Name.valid (nm : Name) : Bool := nm.parts.all fun e => e.2.valid

theorem named_iff (hd : Described n L) (hL : Holohedral L) {nm : Name} (hv : nm.valid = true) (r : M3) :
    r ∈ Named nm n ↔ r ∈ namedList nm L := by
  simp only [Name.valid, List.all_eq_true] at hv
  simp only [Named, Set.mem_ofPred_eq, hd.pointGroup, rotSet, namedList, List.mem_filter, List.mem_map, List.any_eq_true]
  constructor
  · rintro ⟨⟨m, hm, rfl⟩, e, he, hl⟩
    exact ⟨⟨m, hm, rfl⟩, e, he, (Part.linearB_iff (hv e he) (holohedral_finite (hL m hm))).2 hl⟩
  · rintro ⟨⟨m, hm, rfl⟩, e, he, hl⟩
    exact ⟨⟨m, hm, rfl⟩, e, he, (Part.linearB_iff (hv e he) (holohedral_finite (hL m hm))).1 hl⟩

/-! ## Fitting -/

/-- Boolean form of `System.Keeps`. -/
def System.keepsB (sys : System) (r : M3) : Bool := sys.metrics.all fun g => ((r.transpose.mul g).mul r).eqB g

theorem System.keepsB_iff {sys : System} {r : M3} : sys.keepsB r = true ↔ sys.Keeps r := by
  simp only [System.keepsB, System.Keeps, List.all_eq_true, M3.eqB_iff]

/-- The symmetries of the cells of a system, written out (for the cubic cell: none). -/
def System.kept : System → List M3
  | .triclinic => [⟨1, 0, 0, 0, 1, 0, 0, 0, 1⟩, ⟨-1, 0, 0, 0, -1, 0, 0, 0, -1⟩]
  | .monoclinic 0 => [⟨1, 0, 0, 0, 1, 0, 0, 0, 1⟩, ⟨1, 0, 0, 0, -1, 0, 0, 0, -1⟩, ⟨-1, 0, 0, 0, 1, 0, 0, 0, 1⟩,
      ⟨-1, 0, 0, 0, -1, 0, 0, 0, -1⟩]
  | .monoclinic 1 => [⟨1, 0, 0, 0, 1, 0, 0, 0, 1⟩, ⟨1, 0, 0, 0, -1, 0, 0, 0, 1⟩, ⟨-1, 0, 0, 0, 1, 0, 0, 0, -1⟩,
      ⟨-1, 0, 0, 0, -1, 0, 0, 0, -1⟩]
  | .monoclinic 2 => [⟨1, 0, 0, 0, 1, 0, 0, 0, 1⟩, ⟨1, 0, 0, 0, 1, 0, 0, 0, -1⟩, ⟨-1, 0, 0, 0, -1, 0, 0, 0, 1⟩,
      ⟨-1, 0, 0, 0, -1, 0, 0, 0, -1⟩]
  | .orthorhombic => [⟨1, 0, 0, 0, 1, 0, 0, 0, 1⟩, ⟨1, 0, 0, 0, 1, 0, 0, 0, -1⟩, ⟨1, 0, 0, 0, -1, 0, 0, 0, 1⟩,
      ⟨1, 0, 0, 0, -1, 0, 0, 0, -1⟩, ⟨-1, 0, 0, 0, 1, 0, 0, 0, 1⟩, ⟨-1, 0, 0, 0, 1, 0, 0, 0, -1⟩,
      ⟨-1, 0, 0, 0, -1, 0, 0, 0, 1⟩, ⟨-1, 0, 0, 0, -1, 0, 0, 0, -1⟩]
  | .tetragonal => [⟨1, 0, 0, 0, 1, 0, 0, 0, 1⟩, ⟨1, 0, 0, 0, 1, 0, 0, 0, -1⟩, ⟨1, 0, 0, 0, -1, 0, 0, 0, 1⟩,
      ⟨1, 0, 0, 0, -1, 0, 0, 0, -1⟩, ⟨-1, 0, 0, 0, 1, 0, 0, 0, 1⟩, ⟨-1, 0, 0, 0, 1, 0, 0, 0, -1⟩,
      ⟨-1, 0, 0, 0, -1, 0, 0, 0, 1⟩, ⟨-1, 0, 0, 0, -1, 0, 0, 0, -1⟩, ⟨0, 1, 0, 1, 0, 0, 0, 0, 1⟩,
      ⟨0, 1, 0, 1, 0, 0, 0, 0, -1⟩, ⟨0, 1, 0, -1, 0, 0, 0, 0, 1⟩, ⟨0, 1, 0, -1, 0, 0, 0, 0, -1⟩,
      ⟨0, -1, 0, 1, 0, 0, 0, 0, 1⟩, ⟨0, -1, 0, 1, 0, 0, 0, 0, -1⟩, ⟨0, -1, 0, -1, 0, 0, 0, 0, 1⟩,
      ⟨0, -1, 0, -1, 0, 0, 0, 0, -1⟩]
  | .hexagonal => [⟨1, 0, 0, 0, 1, 0, 0, 0, 1⟩, ⟨1, 0, 0, 0, 1, 0, 0, 0, -1⟩, ⟨-1, 0, 0, 0, -1, 0, 0, 0, 1⟩,
      ⟨-1, 0, 0, 0, -1, 0, 0, 0, -1⟩, ⟨0, 1, 0, 1, 0, 0, 0, 0, 1⟩, ⟨0, 1, 0, 1, 0, 0, 0, 0, -1⟩,
      ⟨0, -1, 0, -1, 0, 0, 0, 0, 1⟩, ⟨0, -1, 0, -1, 0, 0, 0, 0, -1⟩, ⟨-1, 0, 0, -1, 1, 0, 0, 0, -1⟩,
      ⟨-1, 0, 0, -1, 1, 0, 0, 0, 1⟩, ⟨-1, 1, 0, -1, 0, 0, 0, 0, -1⟩, ⟨-1, 1, 0, -1, 0, 0, 0, 0, 1⟩,
      ⟨-1, 1, 0, 0, 1, 0, 0, 0, -1⟩, ⟨-1, 1, 0, 0, 1, 0, 0, 0, 1⟩, ⟨0, -1, 0, 1, -1, 0, 0, 0, -1⟩,
      ⟨0, -1, 0, 1, -1, 0, 0, 0, 1⟩, ⟨0, 1, 0, -1, 1, 0, 0, 0, -1⟩, ⟨0, 1, 0, -1, 1, 0, 0, 0, 1⟩,
      ⟨1, -1, 0, 0, -1, 0, 0, 0, -1⟩, ⟨1, -1, 0, 0, -1, 0, 0, 0, 1⟩, ⟨1, -1, 0, 1, 0, 0, 0, 0, -1⟩,
      ⟨1, -1, 0, 1, 0, 0, 0, 0, 1⟩, ⟨1, 0, 0, 1, -1, 0, 0, 0, -1⟩, ⟨1, 0, 0, 1, -1, 0, 0, 0, 1⟩]
  | .rhombohedral => [⟨1, 0, 0, 0, 1, 0, 0, 0, 1⟩, ⟨-1, 0, 0, 0, -1, 0, 0, 0, -1⟩, ⟨1, 0, 0, 0, 0, 1, 0, 1, 0⟩,
      ⟨-1, 0, 0, 0, 0, -1, 0, -1, 0⟩, ⟨0, 1, 0, 1, 0, 0, 0, 0, 1⟩, ⟨0, -1, 0, -1, 0, 0, 0, 0, -1⟩,
      ⟨0, 1, 0, 0, 0, 1, 1, 0, 0⟩, ⟨0, -1, 0, 0, 0, -1, -1, 0, 0⟩, ⟨0, 0, 1, 1, 0, 0, 0, 1, 0⟩,
      ⟨0, 0, -1, -1, 0, 0, 0, -1, 0⟩, ⟨0, 0, 1, 0, 1, 0, 1, 0, 0⟩, ⟨0, 0, -1, 0, -1, 0, -1, 0, 0⟩]
  | .cubic => []

theorem System.kept_keeps (sys : System) : sys.kept.all sys.keepsB = true := by
  cases sys with
  | monoclinic u => fin_cases u <;> decide +kernel
  | _ => decide +kernel

/-- A symmetry of the cell, found in the list or computed. -/
def System.keepsFastB (sys : System) (r : M3) : Bool := memB r sys.kept || sys.keepsB r

theorem System.keepsFastB_sound {sys : System} {r : M3} (h : sys.keepsFastB r = true) : sys.Keeps r := by
  rcases Bool.or_eq_true _ _ ▸ h with h | h
  · exact System.keepsB_iff.1 (List.all_eq_true.1 sys.kept_keeps r (memB_iff.1 h))
  · exact System.keepsB_iff.1 h

/-- Boolean equality of lists of vectors. -/
def vecsB : List V3 → List V3 → Bool
  | [], [] => true
  | a :: l, b :: l' => vecB a b && vecsB l l'
  | _, _ => false

theorem vecsB_iff {a b : List V3} : vecsB a b = true ↔ a = b := by
  induction a generalizing b with
  | nil => cases b <;> simp [vecsB]
  | cons v a ih => cases b <;> simp [vecsB, ih, vecB_iff]

/-- The products of a list of generators, leaving out those that are products of the earlier ones. -/
def closeFew : List M3 → List M3 → List M3 → List M3
  | [], _, c => c
  | g :: rest, gs, c => bif memB g c then closeFew rest gs c else closeFew rest (g :: gs) (close (g :: gs) 50 0 c)

theorem closeFew_generated {S : Set M3} {rest : List M3} (hr : ∀ g ∈ rest, g ∈ S) (gs c : List M3) (hg : ∀ g ∈ gs, g ∈ S)
    (hc : ∀ r ∈ c, Generated S r) : ∀ r ∈ closeFew rest gs c, Generated S r := by
  induction rest generalizing gs c with
  | nil => exact hc
  | cons g rest ih =>
    have hr' : ∀ g ∈ rest, g ∈ S := fun a ha => hr a (List.mem_cons_of_mem _ ha)
    have hgs : ∀ a ∈ g :: gs, a ∈ S := by
      intro a ha
      rcases List.mem_cons.1 ha with rfl | ha
      · exact hr _ (List.mem_cons_self ..)
      · exact hg a ha
    unfold closeFew
    cases memB g c with
    | true => exact ih hr' gs c hg hc
    | false => exact ih hr' _ _ hgs (close_generated hgs 50 0 c hc)

/-- All rotations of the list are products of the named ones. -/
def generatedB (nm : Name) (L : List M4) : Bool :=
  let c := closeFew (namedList nm L) [] [M3.one]
  L.all fun m => memB m.rot c

/-- Boolean form of `Fits`. -/
def fitsNameB (nm : Name) (n : HallSymbolNotation) (L : List M4) : Bool :=
  nm.valid && vecsB (centrings nm.system nm.lattice) n.latticeSymbol.translations && L.all (fun m => nm.system.keepsFastB m.rot) &&
    nm.parts.all (fun e => presentB n.latticeSymbol L nm.system e.1 e.2) && generatedB nm L

theorem translations_iff (hd : Described n L) {f : Pt → Pt} (hf : IsTranslation f) :
    SpaceGroup n f ↔ ∃ v ∈ n.latticeSymbol.translations, ∃ k : V3, ∀ p, f p = (p.addTwelfths v).addCell k :=
  ⟨fun h => hd.consistent f h hf, fun h => .lattice h⟩

theorem fitsNameB_sound (hd : Described n L) (hL : Holohedral L) {nm : Name} (h : fitsNameB nm n L = true) : Fits nm n := by
  simp only [fitsNameB, Bool.and_eq_true, vecsB_iff, List.all_eq_true] at h
  obtain ⟨⟨⟨⟨h1, h2⟩, h3⟩, h4⟩, h5⟩ := h
  have hv : ∀ e ∈ nm.parts, e.2.valid = true := by
    simpa only [Name.valid, List.all_eq_true] using h1
  refine ⟨fun f hf => ?_, ?_, ?_, ?_⟩
  · rw [h2]; exact translations_iff hd hf
  · intro r hr
    rw [hd.pointGroup] at hr
    obtain ⟨m, hm, rfl⟩ := hr
    exact System.keepsFastB_sound (h3 m hm)
  · intro e he
    exact (presentB_iff hd hL (hv e he)).1 (h4 e he)
  · intro r hr
    rw [hd.pointGroup] at hr
    obtain ⟨m, hm, rfl⟩ := hr
    simp only [generatedB, List.all_eq_true, memB_iff] at h5
    refine closeFew_generated (fun g hg => (named_iff hd hL h1 g).2 hg) [] _ (fun _ hg => nomatch hg) ?_ _ (h5 m hm)
    intro r hr
    rw [List.mem_singleton.1 hr]
    exact .one

/-- The generation fails: a list closed under the named rotations misses a rotation of the group. -/
def notGeneratedB (nm : Name) (L : List M4) : Bool :=
  let gs := namedList nm L
  let c := close gs 50 0 [M3.one]
  nm.valid && memB M3.one c && c.all (fun a => gs.all fun g => memB (a.mul g) c) && L.any fun m => ! memB m.rot c

theorem notGeneratedB_sound (hd : Described n L) (hL : Holohedral L) {nm : Name} (h : notGeneratedB nm L = true) :
    ¬ Fits nm n := by
  simp only [notGeneratedB, Bool.and_eq_true, List.all_eq_true, memB_iff, List.any_eq_true, Bool.not_eq_true',
    Bool.eq_false_iff, ne_eq] at h
  obtain ⟨⟨⟨h1, h2⟩, h3⟩, m, hm, h4⟩ := h
  intro hf
  refine h4 (generated_closed h2 (fun a ha g hg => h3 a ha g ((named_iff hd hL h1 g).1 hg)) (hf.generated m.rot ?_))
  rw [hd.pointGroup]
  exact ⟨m, hm, rfl⟩

/-- The symbol of a turn. -/
def Part.isAxis : Part → Bool
  | .axis _ _ => true
  | _ => false

/-- The name has turns only and the group an improper rotation. -/
def turnsOnlyB (nm : Name) (L : List M4) : Bool := nm.parts.all (fun e => e.2.isAxis) && L.any fun m => intEqB m.rot.det (-1)

theorem turnsOnlyB_sound (hd : Described n L) {nm : Name} (h : turnsOnlyB nm L = true) : ¬ Fits nm n := by
  simp only [turnsOnlyB, Bool.and_eq_true, List.all_eq_true, List.any_eq_true, intEqB_iff] at h
  obtain ⟨h1, m, hm, h2⟩ := h
  intro hf
  have key : ∀ r, Generated (Named nm n) r → r.det = 1 := by
    intro r hr
    induction hr with
    | one => rfl
    | mul _ hg ih =>
      obtain ⟨_, e, he, hl⟩ := hg
      have h3 := h1 e he
      obtain ⟨d, p⟩ := e
      cases p with
      | axis k s => rw [M3.det_mul, ih, hl.1]; rfl
      | bar k => cases h3
      | plane g => cases h3
  have := key m.rot (hf.generated m.rot (by rw [hd.pointGroup]; exact ⟨m, hm, rfl⟩))
  omega

end Verif.HM
