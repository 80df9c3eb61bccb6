import Verif.Proofs.Iterate
import Verif.Proofs.TypeSentence
import Verif.Proofs.Rows

/-! # Evaluating sentences on a described group -/

namespace Verif

/-- The vector with coordinates in twelfths. -/
def V3.pt (v : V3) : Pt := ⟨v.x / 12, v.y / 12, v.z / 12⟩

theorem V3.pt_inj {u v : V3} (h : u.pt = v.pt) : u = v := by
  simp only [V3.pt, Pt.mk.injEq] at h
  obtain ⟨h1, h2, h3⟩ := h
  ext <;> apply Int.cast_injective (α := ℚ) <;> linarith

theorem V3.pt_smul (v : V3) (c : Int) : (v.smul c).pt = v.pt.smul c := by
  ext <;> simp only [V3.pt, V3.smul, Pt.smul] <;> push_cast <;> ring

theorem V3.pt_add (u v : V3) : (u.add v).pt = u.pt.add v.pt := by
  ext <;> simp only [V3.pt, V3.add, Pt.add] <;> push_cast <;> ring

theorem M3.app_pt (a : M3) (v : V3) : a.app v.pt = (a.mulVec v).pt := by
  ext <;> simp only [V3.pt, M3.app, M3.mulVec] <;> push_cast <;> ring

theorem translate_pt (v : V3) : translate v.pt = (trMat v).act := by
  rw [trMat_act]; rfl

/-- A lattice translation, in twelfths. -/
def InT (l : LatticeSymbol) (v : V3) : Prop := LatCong l v V3.zero

theorem InT.zero (l : LatticeSymbol) : InT l V3.zero := .refl _ _

theorem InT.add {l : LatticeSymbol} {u v : V3} (h : InT l u) (h' : InT l v) : InT l (u.add v) := by
  have := LatCong.add h h'
  rwa [V3.add_zero] at this

theorem InT.neg {l : LatticeSymbol} {u : V3} (h : InT l u) : InT l u.neg := LatCong.neg h

theorem InT.sub {l : LatticeSymbol} {u v : V3} (h : InT l u) (h' : InT l v) : InT l (u.sub v) := by
  have : u.sub v = u.add v.neg := by ext <;> simp [V3.sub, V3.add, V3.neg] <;> ring
  rw [this]; exact h.add h'.neg

theorem InT.nsmul {l : LatticeSymbol} {u : V3} (h : InT l u) (k : Nat) : InT l (u.smul k) := by
  induction k with
  | zero => have : u.smul ((0 : Nat) : Int) = V3.zero := by ext <;> simp [V3.smul, V3.zero]
            rw [this]; exact .zero l
  | succ k ih =>
    have : u.smul ((k + 1 : Nat) : Int) = (u.smul k).add u := by
      ext <;> simp only [V3.smul, V3.add] <;> push_cast <;> ring
    rw [this]; exact ih.add h

theorem InT.smul {l : LatticeSymbol} {u : V3} (h : InT l u) (c : Int) : InT l (u.smul c) := by
  obtain ⟨k, rfl | rfl⟩ := c.eq_nat_or_neg
  · exact h.nsmul k
  · have : u.smul (-(k : Int)) = (u.smul k).neg := by ext <;> simp [V3.smul, V3.neg]
    rw [this]; exact (h.nsmul k).neg

theorem Described.translate_iff {n : HallSymbolNotation} {L : List M4} (h : Described n L) (q : Pt) :
    SpaceGroup n (translate q) ↔ ∃ v, q = v.pt ∧ InT n.latticeSymbol v := by
  constructor
  · intro hq
    have := h.consistent _ hq ⟨q, fun p => rfl⟩
    obtain ⟨v, e, hv⟩ := this.exists_vec
    refine ⟨v, ?_, hv⟩
    rw [← translate_pt] at e
    have := congrFun e Pt.zero
    simp only [translate] at this
    have z : ∀ r : Pt, Pt.zero.add r = r := by intro r; ext <;> simp [Pt.zero, Pt.add]
    rwa [z, z] at this
  · rintro ⟨v, rfl, hv⟩
    rw [translate_pt]
    exact .lattice ((isLatticeTranslation_iff _ _).2 hv)

/-- Multiples of lattice translations, in twelfths. -/
def InMT (l : LatticeSymbol) (m : Nat) (v : V3) : Prop := ∃ q, InT l q ∧ v = q.smul m

theorem InMT.add {l : LatticeSymbol} {m : Nat} {u v : V3} (h : InMT l m u) (h' : InMT l m v) : InMT l m (u.add v) := by
  obtain ⟨p, hp, rfl⟩ := h
  obtain ⟨q, hq, rfl⟩ := h'
  exact ⟨p.add q, hp.add hq, by ext <;> simp [V3.smul, V3.add] <;> ring⟩

theorem InMT.neg {l : LatticeSymbol} {m : Nat} {u : V3} (h : InMT l m u) : InMT l m u.neg := by
  obtain ⟨p, hp, rfl⟩ := h
  exact ⟨p.neg, hp.neg, by ext <;> simp [V3.smul, V3.neg]⟩

theorem InMT.add_iff {l : LatticeSymbol} {m : Nat} {u v : V3} (h : InMT l m v) : InMT l m (u.add v) ↔ InMT l m u := by
  refine ⟨fun h' => ?_, fun h' => h'.add h⟩
  have := h'.add h.neg
  have e : (u.add v).add v.neg = u := by ext <;> simp [V3.add, V3.neg]
  rwa [e] at this

/-- Boolean form of `LatCong l v 0`. -/
def inTB (l : LatticeSymbol) (v : V3) : Bool :=
  l.translations.any fun t =>
    intEqB (Int.emod (v.x - t.x) 12) 0 && (intEqB (Int.emod (v.y - t.y) 12) 0 && intEqB (Int.emod (v.z - t.z) 12) 0)

theorem inTB_iff {l : LatticeSymbol} {v : V3} : inTB l v = true ↔ InT l v := by
  simp only [inTB, List.any_eq_true, Bool.and_eq_true, intEqB_iff, InT, LatCong, V3.zero_add]
  constructor
  · rintro ⟨t, ht, h1, h2, h3⟩
    exact ⟨t, ht, Int.dvd_of_emod_eq_zero h1, Int.dvd_of_emod_eq_zero h2, Int.dvd_of_emod_eq_zero h3⟩
  · rintro ⟨t, ht, h1, h2, h3⟩
    exact ⟨t, ht, Int.emod_eq_zero_of_dvd h1, Int.emod_eq_zero_of_dvd h2, Int.emod_eq_zero_of_dvd h3⟩

/-- Boolean form of `InMT`. -/
def inMB (l : LatticeSymbol) (m : Nat) (u : V3) : Bool :=
  intEqB (Int.emod u.x m) 0 && (intEqB (Int.emod u.y m) 0 && (intEqB (Int.emod u.z m) 0 &&
    inTB l ⟨Int.ediv u.x m, Int.ediv u.y m, Int.ediv u.z m⟩))

theorem inMB_iff {l : LatticeSymbol} {m : Nat} (hm : 0 < m) {u : V3} : inMB l m u = true ↔ InMT l m u := by
  simp only [inMB, Bool.and_eq_true, intEqB_iff, inTB_iff, InMT]
  constructor
  · rintro ⟨h1, h2, h3, h4⟩
    refine ⟨_, h4, ?_⟩
    ext
    · exact (Int.mul_ediv_cancel' (Int.dvd_of_emod_eq_zero h1)).symm
    · exact (Int.mul_ediv_cancel' (Int.dvd_of_emod_eq_zero h2)).symm
    · exact (Int.mul_ediv_cancel' (Int.dvd_of_emod_eq_zero h3)).symm
  · rintro ⟨q, hq, rfl⟩
    have hm' : (m : Int) ≠ 0 := by omega
    refine ⟨Int.mul_emod_right .., Int.mul_emod_right .., Int.mul_emod_right .., ?_⟩
    have : (⟨Int.ediv (m * q.x) m, Int.ediv (m * q.y) m, Int.ediv (m * q.z) m⟩ : V3) = q := by
      ext
      · exact Int.mul_ediv_cancel_left _ hm'
      · exact Int.mul_ediv_cancel_left _ hm'
      · exact Int.mul_ediv_cancel_left _ hm'
    simp only [V3.smul]
    rw [this]; exact hq

/-! ## Representatives of the lattice modulo `m` -/

/-- A primitive basis. -/
def primBasis : Lattices → V3 × V3 × V3
  | .P => (⟨12, 0, 0⟩, ⟨0, 12, 0⟩, ⟨0, 0, 12⟩)
  | .A => (⟨12, 0, 0⟩, ⟨0, 6, 6⟩, ⟨0, 0, 12⟩)
  | .B => (⟨6, 0, 6⟩, ⟨0, 12, 0⟩, ⟨0, 0, 12⟩)
  | .C => (⟨6, 6, 0⟩, ⟨0, 12, 0⟩, ⟨0, 0, 12⟩)
  | .I => (⟨6, 6, 6⟩, ⟨0, 12, 0⟩, ⟨0, 0, 12⟩)
  | .R => (⟨8, 4, 4⟩, ⟨0, 12, 0⟩, ⟨4, 8, 8⟩)
  | .F => (⟨0, 6, 6⟩, ⟨6, 0, 6⟩, ⟨6, 6, 0⟩)

/-- Combinations of the basis with coefficients below `m`. -/
def reps (c : Lattices) (m : Nat) : List V3 :=
  (List.range m).flatMap fun (i : Nat) => (List.range m).flatMap fun (j : Nat) => (List.range m).map fun (k : Nat) =>
    (((primBasis c).1.smul i).add ((primBasis c).2.1.smul j)).add ((primBasis c).2.2.smul k)

/-- The representatives are complete. -/
def RepsOk (l : LatticeSymbol) (m : Nat) (R : List V3) : Prop :=
  (∀ r ∈ R, InT l r) ∧ ∀ v, InT l v → ∃ r ∈ R, InMT l m (v.sub r)

/-- A combination of the basis. -/
def basisSum (c : Lattices) (i j k : Int) : V3 :=
  (((primBasis c).1.smul i).add ((primBasis c).2.1.smul j)).add ((primBasis c).2.2.smul k)

/-- The coordinates in the basis. -/
def basisCoords (c : Lattices) (v : V3) : Int × Int × Int :=
  match c with
  | .P => (v.x / 12, v.y / 12, v.z / 12)
  | .A => (v.x / 12, v.y / 6, (v.z - v.y) / 12)
  | .B => (v.x / 6, v.y / 12, (v.z - v.x) / 12)
  | .C => (v.x / 6, (v.y - v.x) / 12, v.z / 12)
  | .I => (v.x / 6, (v.y - v.x) / 12, (v.z - v.x) / 12)
  | .R => ((2 * v.x - v.z) / 12, (v.y - v.z) / 12, (2 * v.z - v.x) / 12)
  | .F => ((v.y + v.z - v.x) / 12, (v.x + v.z - v.y) / 12, (v.x + v.y - v.z) / 12)

theorem inT_coords {l : LatticeSymbol} {v : V3} (h : InT l v) :
    v = basisSum l.char (basisCoords l.char v).1 (basisCoords l.char v).2.1 (basisCoords l.char v).2.2 := by
  obtain ⟨s, c⟩ := l
  obtain ⟨t, ht, ⟨a, ha⟩, ⟨b, hb⟩, ⟨d, hd⟩⟩ := h
  obtain ⟨vx, vy, vz⟩ := v
  simp only [V3.zero_add] at ha hb hd
  cases c <;>
    simp only [LatticeSymbol.translations, Lattices.translations, List.mem_cons, List.not_mem_nil, or_false] at ht <;>
    (first
      | (rcases ht with rfl | rfl | rfl | rfl)
      | (rcases ht with rfl | rfl | rfl)
      | (rcases ht with rfl | rfl)
      | (rcases ht with rfl)) <;>
    simp only [] at ha hb hd <;>
    ext <;> simp only [basisSum, basisCoords, primBasis, V3.add, V3.smul] <;> omega

theorem inT_basisSum (l : LatticeSymbol) (i j k : Int) : InT l (basisSum l.char i j k) := by
  have hb : inTB ⟨l.minusSign, l.char⟩ (primBasis l.char).1 = true ∧ inTB ⟨l.minusSign, l.char⟩ (primBasis l.char).2.1 = true ∧
      inTB ⟨l.minusSign, l.char⟩ (primBasis l.char).2.2 = true := by
    cases l.minusSign <;> cases l.char <;> decide
  exact ((InT.smul (inTB_iff.1 hb.1) i).add (InT.smul (inTB_iff.1 hb.2.1) j)).add (InT.smul (inTB_iff.1 hb.2.2) k)

theorem reps_ok (l : LatticeSymbol) {m : Nat} (hm : m = 2 ∨ m = 3 ∨ m = 4) : RepsOk l m (reps l.char m) := by
  have hm0 : 0 < m := by omega
  have hm' : (0 : Int) < m := by omega
  constructor
  · intro r hr
    simp only [reps, List.mem_flatMap, List.mem_map, List.mem_range] at hr
    obtain ⟨i, _, j, _, k, _, rfl⟩ := hr
    exact inT_basisSum l i j k
  · intro v hv
    have key : ∀ x : Int, ∃ i < m, ∃ y : Int, x = (i : Nat) + m * y := by
      intro x
      refine ⟨(x % m).toNat, ?_, x / m, ?_⟩
      · have := Int.emod_lt_of_pos x hm'; have := Int.emod_nonneg x hm'.ne'; omega
      · have h1 := Int.emod_nonneg x hm'.ne'; have h2 := Int.emod_add_mul_ediv x m
        rw [Int.toNat_of_nonneg h1]; exact h2.symm
    have e := inT_coords hv
    obtain ⟨i, hi, a, ea⟩ := key (basisCoords l.char v).1
    obtain ⟨j, hj, b, eb⟩ := key (basisCoords l.char v).2.1
    obtain ⟨k, hk, c, ec⟩ := key (basisCoords l.char v).2.2
    refine ⟨basisSum l.char i j k, ?_, basisSum l.char a b c, inT_basisSum l a b c, ?_⟩
    · simp only [reps, List.mem_flatMap, List.mem_map, List.mem_range]
      exact ⟨i, hi, j, hj, k, hk, rfl⟩
    · rw [e, ea, eb, ec]
      ext <;> simp only [basisSum, V3.sub, V3.add, V3.smul] <;> ring

/-! ## Words -/

/-- A word's value when the translations of the two operations are changed by `u` and `v`: translation `t + a u + b v`. -/
structure LinW where
  rot : M3
  t : V3
  a : M3
  b : M3

/-- The value of a word. -/
def linWord (m1 m2 : M4) : Word → LinW
  | [] => ⟨M3.one, V3.zero, M3.zero, M3.zero⟩
  | false :: w =>
    match linWord m1 m2 w with
    | ⟨r, t, a, b⟩ => ⟨m1.rot.mul r, (m1.rot.mulVec t).add m1.tr, (m1.rot.mul a).add M3.one, m1.rot.mul b⟩
  | true :: w =>
    match linWord m1 m2 w with
    | ⟨r, t, a, b⟩ => ⟨m2.rot.mul r, (m2.rot.mulVec t).add m2.tr, m2.rot.mul a, (m2.rot.mul b).add M3.one⟩

theorem ev_linWord (m1 m2 : M4) (u v : V3) (w : Word) :
    Word.ev (translate u.pt ∘ m1.act) (translate v.pt ∘ m2.act) w =
      M4.act ⟨(linWord m1 m2 w).rot,
        ((linWord m1 m2 w).t.add ((linWord m1 m2 w).a.mulVec u)).add ((linWord m1 m2 w).b.mulVec v), V3.zero, 1⟩ := by
  rw [translate_pt, translate_pt, trMat_comp, trMat_comp]
  induction w with
  | nil =>
    have : M4.act ⟨M3.one, V3.zero, V3.zero, 1⟩ = id := M4.act_mk_one _ _ _ rfl
    change id = M4.act ⟨M3.one, (V3.zero.add (M3.zero.mulVec u)).add (M3.zero.mulVec v), V3.zero, 1⟩
    rw [← this, M3.zero_mulVec, M3.zero_mulVec]; rfl
  | cons c w ih =>
    cases c <;> simp only [Word.ev, ih, M4.act_comp, linWord] <;> congr 2 <;>
      ext <;> simp only [M3.mul, M3.mulVec, M3.add, M3.one, V3.add] <;> ring

/-- The matrix maps lattice translations to lattice translations. -/
def Keeps (l : LatticeSymbol) (a : M3) : Prop := ∀ v, InT l v → InT l (a.mulVec v)

theorem Keeps.mul {l : LatticeSymbol} {a b : M3} (ha : Keeps l a) (hb : Keeps l b) : Keeps l (a.mul b) := by
  intro v hv; rw [← M3.mulVec_mulVec]; exact ha _ (hb _ hv)

theorem Keeps.add {l : LatticeSymbol} {a b : M3} (ha : Keeps l a) (hb : Keeps l b) : Keeps l (a.add b) := by
  intro v hv
  have : (a.add b).mulVec v = (a.mulVec v).add (b.mulVec v) := by
    ext <;> simp only [M3.add, M3.mulVec, V3.add] <;> ring
  rw [this]; exact (ha v hv).add (hb v hv)

theorem Keeps.sub {l : LatticeSymbol} {a b : M3} (ha : Keeps l a) (hb : Keeps l b) : Keeps l (a.sub b) := by
  intro v hv
  have : (a.sub b).mulVec v = (a.mulVec v).sub (b.mulVec v) := by
    ext <;> simp only [M3.sub, M3.mulVec, V3.sub] <;> ring
  rw [this]; exact (ha v hv).sub (hb v hv)

theorem Keeps.one (l : LatticeSymbol) : Keeps l M3.one := by
  intro v hv; rw [M3.one_mulVec]; exact hv

theorem Keeps.zero (l : LatticeSymbol) : Keeps l M3.zero := by
  intro v hv; rw [M3.zero_mulVec]; exact .zero l

theorem Described.keeps {n : HallSymbolNotation} {L : List M4} (h : Described n L) {m : M4} (hm : m ∈ L) :
    Keeps n.latticeSymbol m.rot := by
  obtain ⟨ms, h1, h2⟩ := h.cert
  intro v hv
  exact h2.lattice_stable hm hv

theorem linWord_keeps {l : LatticeSymbol} {m1 m2 : M4} (h1 : Keeps l m1.rot) (h2 : Keeps l m2.rot) (w : Word) :
    Keeps l (linWord m1 m2 w).rot ∧ Keeps l (linWord m1 m2 w).a ∧ Keeps l (linWord m1 m2 w).b := by
  induction w with
  | nil => exact ⟨.one l, .zero l, .zero l⟩
  | cons c w ih =>
    obtain ⟨i1, i2, i3⟩ := ih
    cases c
    · exact ⟨h1.mul i1, (h1.mul i2).add (.one l), h1.mul i3⟩
    · exact ⟨h2.mul i1, h2.mul i2, (h2.mul i3).add (.one l)⟩

/-! ## Equations between words -/

/-- The difference of two words: whether the rotations agree, and the difference of the translations. -/
structure Diff where
  pos : Bool
  same : Bool
  t : V3
  a : M3
  b : M3

/-- The difference of the two sides of an equation. -/
def wordDiff (m1 m2 : M4) (l : Bool × Word × Word) : Diff :=
  match linWord m1 m2 l.2.1, linWord m1 m2 l.2.2 with
  | ⟨r, t, a, b⟩, ⟨r', t', a', b'⟩ => ⟨l.1, r.eqB r', t.sub t', a.sub a', b.sub b'⟩

/-- Translation of the difference. -/
def Diff.at (d : Diff) (u v : V3) : V3 := (d.t.add (d.a.mulVec u)).add (d.b.mulVec v)

/-- The equation is true or false as required. -/
def Diff.ok (l : LatticeSymbol) (m : Nat) (u v : V3) (d : Diff) : Bool :=
  (d.same && inMB l m (d.at u v)) == d.pos

theorem eqMod_act {n : HallSymbolNotation} {L : List M4} (h : Described n L) {m : Nat} (a b : M4) :
    EqMod (SpaceGroup n) m a.act b.act ↔ a.rot = b.rot ∧ InMT n.latticeSymbol m (a.tr.sub b.tr) := by
  constructor
  · rintro ⟨q, hq, e⟩
    obtain ⟨v, rfl, hv⟩ := (h.translate_iff q).1 hq
    rw [← V3.pt_smul, translate_pt, trMat_comp] at e
    obtain ⟨e1, e2⟩ := M4.act_inj e
    refine ⟨e1, v, hv, ?_⟩
    rw [e2]
    ext <;> simp [V3.sub, V3.add]
  · rintro ⟨e1, v, hv, e2⟩
    refine ⟨v.pt, (h.translate_iff _).2 ⟨v, rfl, hv⟩, ?_⟩
    rw [← V3.pt_smul, translate_pt, trMat_comp, ← e2]
    have : b.tr.add (a.tr.sub b.tr) = a.tr := by ext <;> simp [V3.sub, V3.add]
    rw [this, ← e1]
    funext p
    exact M4.act_congr_rot_tr rfl rfl p

theorem wordDiff_ok {n : HallSymbolNotation} {L : List M4} (h : Described n L) {m : Nat} (hm : 0 < m) (m1 m2 : M4) (u v : V3)
    (lit : Bool × Word × Word) :
    (wordDiff m1 m2 lit).ok n.latticeSymbol m u v = true ↔
      (EqMod (SpaceGroup n) m (Word.ev (translate u.pt ∘ m1.act) (translate v.pt ∘ m2.act) lit.2.1)
        (Word.ev (translate u.pt ∘ m1.act) (translate v.pt ∘ m2.act) lit.2.2) ↔ lit.1 = true) := by
  rw [ev_linWord, ev_linWord, eqMod_act h]
  simp only [wordDiff, Diff.ok, beq_iff_eq]
  rw [Bool.eq_iff_iff, Bool.and_eq_true, inMB_iff hm, M3.eqB_iff]
  have : Diff.at ⟨lit.1, (linWord m1 m2 lit.2.1).rot.eqB (linWord m1 m2 lit.2.2).rot,
      (linWord m1 m2 lit.2.1).t.sub (linWord m1 m2 lit.2.2).t, (linWord m1 m2 lit.2.1).a.sub (linWord m1 m2 lit.2.2).a,
      (linWord m1 m2 lit.2.1).b.sub (linWord m1 m2 lit.2.2).b⟩ u v =
      (((linWord m1 m2 lit.2.1).t.add ((linWord m1 m2 lit.2.1).a.mulVec u)).add ((linWord m1 m2 lit.2.1).b.mulVec v)).sub
      (((linWord m1 m2 lit.2.2).t.add ((linWord m1 m2 lit.2.2).a.mulVec u)).add ((linWord m1 m2 lit.2.2).b.mulVec v)) := by
    ext <;> simp only [Diff.at, M3.sub, M3.mulVec, V3.add, V3.sub] <;> ring
  rw [this]

/-- Representatives for a variable with the given coefficients. -/
def varReps (R : List V3) (cs : List M3) : List V3 := bif cs.all (M3.eqB M3.zero) then [V3.zero] else R

theorem varReps_exists {l : LatticeSymbol} {m : Nat} {R : List V3} (hR : RepsOk l m R) {cs : List M3} {Q : V3 → Prop}
    (hz : (∀ a ∈ cs, a = M3.zero) → ∀ u v, Q u → Q v)
    (hm : ∀ u v, InT l u → InMT l m (u.sub v) → Q u → Q v) :
    (∃ u, InT l u ∧ Q u) ↔ ∃ u ∈ varReps R cs, Q u := by
  unfold varReps
  cases hb : cs.all (M3.eqB M3.zero) with
  | true =>
    simp only [cond_true, List.mem_singleton, exists_eq_left]
    have : ∀ a ∈ cs, a = M3.zero := by
      intro a ha
      exact (M3.eqB_iff.1 (List.all_eq_true.1 hb a ha)).symm
    exact ⟨fun ⟨u, _, h⟩ => hz this _ _ h, fun h => ⟨_, .zero l, h⟩⟩
  | false =>
    simp only [cond_false]
    constructor
    · rintro ⟨u, hu, h⟩
      obtain ⟨r, hr, hd⟩ := hR.2 u hu
      exact ⟨r, hr, hm u r hu hd h⟩
    · rintro ⟨u, hu, h⟩
      exact ⟨u, hR.1 u hu, h⟩

/-- Evaluation of an existential clause about translations. -/
def liftB (l : LatticeSymbol) (m : Nat) (R : List V3) (ds : List Diff) : Bool :=
  (varReps R (ds.map Diff.a)).any fun u => (varReps R (ds.map Diff.b)).any fun v => ds.all (Diff.ok l m u v)

theorem liftB_iff {l : LatticeSymbol} {m : Nat} (hm : 0 < m) {R : List V3} (hR : RepsOk l m R) {ds : List Diff}
    (hk : ∀ d ∈ ds, Keeps l d.a ∧ Keeps l d.b) :
    liftB l m R ds = true ↔ ∃ u v, InT l u ∧ InT l v ∧ ∀ d ∈ ds, d.ok l m u v = true := by
  have hshift : ∀ d ∈ ds, ∀ u v u' v', InMT l m (u.sub u') → InMT l m (v.sub v') →
      d.ok l m u v = true → d.ok l m u' v' = true := by
    rintro d hd u v u' v' ⟨p, hp, ep⟩ ⟨q, hq, eq⟩ h
    simp only [Diff.ok, beq_iff_eq] at h ⊢
    rw [← h]
    congr 1
    rw [Bool.eq_iff_iff, inMB_iff hm, inMB_iff hm]
    have e : d.at u v = (d.at u' v').add ((d.a.mulVec (u.sub u')).add (d.b.mulVec (v.sub v'))) := by
      ext <;> simp only [Diff.at, M3.mulVec, V3.add, V3.sub] <;> ring
    rw [e, InMT.add_iff]
    refine InMT.add ⟨_, (hk d hd).1 p hp, ?_⟩ ⟨_, (hk d hd).2 q hq, ?_⟩
    · rw [ep]; ext <;> simp only [M3.mulVec, V3.smul] <;> ring
    · rw [eq]; ext <;> simp only [M3.mulVec, V3.smul] <;> ring
  have h0 : ∀ u : V3, InMT l m (u.sub u) := fun u => ⟨V3.zero, .zero l, by ext <;> simp [V3.sub, V3.smul, V3.zero]⟩
  have hv : ∀ u, (∃ v, InT l v ∧ ∀ d ∈ ds, d.ok l m u v = true) ↔
      ∃ v ∈ varReps R (ds.map Diff.b), ∀ d ∈ ds, d.ok l m u v = true := by
    intro u
    refine varReps_exists (Q := fun v => ∀ d ∈ ds, d.ok l m u v = true) hR ?_ ?_
    · intro hz v v' h d hd
      have hb : d.b = M3.zero := hz _ (List.mem_map_of_mem hd)
      have := h d hd
      simp only [Diff.ok, Diff.at, hb, M3.zero_mulVec] at this ⊢
      exact this
    · intro v v' _ hd h d hdd
      exact hshift d hdd u v u v' (h0 u) hd (h d hdd)
  simp only [liftB, List.any_eq_true, List.all_eq_true, ← hv]
  rw [← varReps_exists (l := l) (m := m) (Q := fun u => ∃ v, InT l v ∧ ∀ d ∈ ds, d.ok l m u v = true) hR]
  · constructor
    · rintro ⟨u, hu, v, hv, h⟩; exact ⟨u, v, hu, hv, h⟩
    · rintro ⟨u, v, hu, hv, h⟩; exact ⟨u, hu, v, hv, h⟩
  · rintro hz u u' ⟨v, hv, h⟩
    refine ⟨v, hv, fun d hd => ?_⟩
    have ha : d.a = M3.zero := hz _ (List.mem_map_of_mem hd)
    have := h d hd
    simp only [Diff.ok, Diff.at, ha, M3.zero_mulVec] at this ⊢
    exact this
  · rintro u u' _ hd ⟨v, hv, h⟩
    exact ⟨v, hv, fun d hdd => hshift d hdd u v u' v hd (h0 v) (h d hdd)⟩

/-! ## Combinations of words -/

/-- The matrix of a combination of words. -/
def polyMat (m1 m2 : M4) : List (Int × Word) → M3
  | [] => M3.zero
  | (c, w) :: l => ((linWord m1 m2 w).rot.map fun x => c * x).add (polyMat m1 m2 l)

theorem ev_rot (m1 m2 : M4) (w : Word) : ∃ t, Word.ev m1.act m2.act w = M4.act ⟨(linWord m1 m2 w).rot, t, V3.zero, 1⟩ := by
  have h := ev_linWord m1 m2 V3.zero V3.zero w
  have e : ∀ f : Pt → Pt, translate V3.zero.pt ∘ f = f := by
    intro f; funext p; ext <;> simp [translate, V3.pt, V3.zero, Pt.add]
  rw [e, e] at h
  exact ⟨_, h⟩

theorem polyEv_eq (m1 m2 : M4) (u : V3) (l : List (Int × Word)) :
    polyEv m1.act m2.act u.pt l = ((polyMat m1 m2 l).mulVec u).pt := by
  induction l with
  | nil => simp only [polyEv, polyMat, M3.zero_mulVec]; ext <;> simp [Pt.zero, V3.pt, V3.zero]
  | cons a l ih =>
    obtain ⟨c, w⟩ := a
    obtain ⟨t, ht⟩ := ev_rot m1 m2 w
    simp only [polyEv, polyMat, ih, ht, lin_act, M3.app_pt, ← V3.pt_smul, ← V3.pt_add]
    congr 1
    ext <;> simp only [M3.add, M3.map, M3.mulVec, V3.add, V3.smul] <;> ring

theorem polyMat_keeps {l : LatticeSymbol} {m1 m2 : M4} (h1 : Keeps l m1.rot) (h2 : Keeps l m2.rot) (p : List (Int × Word)) :
    Keeps l (polyMat m1 m2 p) := by
  induction p with
  | nil => exact .zero l
  | cons a p ih =>
    obtain ⟨c, w⟩ := a
    refine Keeps.add ?_ ih
    intro v hv
    have : ((linWord m1 m2 w).rot.map fun x => c * x).mulVec v = ((linWord m1 m2 w).rot.mulVec v).smul c := by
      ext <;> simp only [M3.map, M3.mulVec, V3.smul] <;> ring
    rw [this]
    exact ((linWord_keeps h1 h2 w).1 v hv).smul c

/-- Evaluation of a clause about a lattice translation. -/
def transB (l : LatticeSymbol) (m : Nat) (R : List V3) (ps : List (Bool × M3)) : Bool :=
  R.any fun u => ps.all fun p => inMB l m (p.2.mulVec u) == p.1

theorem transB_iff {l : LatticeSymbol} {m : Nat} (hm : 0 < m) {R : List V3} (hR : RepsOk l m R) {ps : List (Bool × M3)}
    (hk : ∀ p ∈ ps, Keeps l p.2) :
    transB l m R ps = true ↔ ∃ u, InT l u ∧ ∀ p ∈ ps, (InMT l m (p.2.mulVec u) ↔ p.1 = true) := by
  have hb : ∀ (u : V3) (p : Bool × M3), (inMB l m (p.2.mulVec u) == p.1) = true ↔ (InMT l m (p.2.mulVec u) ↔ p.1 = true) := by
    intro u p
    rw [beq_iff_eq, Bool.eq_iff_iff, inMB_iff hm]
  simp only [transB, List.any_eq_true, List.all_eq_true, hb]
  constructor
  · rintro ⟨u, hu, h⟩
    exact ⟨u, hR.1 u hu, h⟩
  · rintro ⟨u, hu, h⟩
    obtain ⟨r, hr, q, hq, e⟩ := hR.2 u hu
    refine ⟨r, hr, fun p hp => ?_⟩
    rw [← h p hp]
    have e' : p.2.mulVec u = (p.2.mulVec r).add (p.2.mulVec (u.sub r)) := by
      ext <;> simp only [M3.mulVec, V3.add, V3.sub] <;> ring
    rw [e', InMT.add_iff]
    refine ⟨_, hk p hp q hq, ?_⟩
    rw [e]; ext <;> simp only [M3.mulVec, V3.smul] <;> ring

/-! ## Sentences -/

/-- The modulus of a clause. -/
def Clause.modulus : Clause → Nat
  | .lift m _ => m
  | .trans m _ => m

/-- Evaluation of a clause. -/
def clauseB (l : LatticeSymbol) (m1 m2 : M4) : Clause → Bool
  | .lift m lits => liftB l m (reps l.char m) (lits.map (wordDiff m1 m2))
  | .trans m lits => transB l m (reps l.char m) (lits.map fun p => (p.1, polyMat m1 m2 p.2))

theorem clauseB_iff {n : HallSymbolNotation} {L : List M4} (h : Described n L) {m1 m2 : M4} (h1 : m1 ∈ L) (h2 : m2 ∈ L)
    (c : Clause) (hc : c.modulus = 2 ∨ c.modulus = 3 ∨ c.modulus = 4) :
    clauseB n.latticeSymbol m1 m2 c = true ↔ c.Holds (SpaceGroup n) m1.act m2.act := by
  have k1 := h.keeps h1
  have k2 := h.keeps h2
  cases c with
  | lift m lits =>
    have hm : 0 < m := by simp only [Clause.modulus] at hc; omega
    rw [clauseB, liftB_iff hm (reps_ok _ hc)]
    · simp only [List.forall_mem_map, wordDiff_ok h hm, Clause.Holds]
      constructor
      · rintro ⟨u, v, hu, hv, hl⟩
        exact ⟨u.pt, v.pt, (h.translate_iff _).2 ⟨u, rfl, hu⟩, (h.translate_iff _).2 ⟨v, rfl, hv⟩, hl⟩
      · rintro ⟨u, v, hu, hv, hl⟩
        obtain ⟨u, rfl, hu'⟩ := (h.translate_iff _).1 hu
        obtain ⟨v, rfl, hv'⟩ := (h.translate_iff _).1 hv
        exact ⟨u, v, hu', hv', hl⟩
    · intro d hd
      obtain ⟨lit, _, rfl⟩ := List.mem_map.1 hd
      obtain ⟨_, a1, b1⟩ := linWord_keeps k1 k2 lit.2.1
      obtain ⟨_, a2, b2⟩ := linWord_keeps k1 k2 lit.2.2
      exact ⟨a1.sub a2, b1.sub b2⟩
  | trans m lits =>
    have hm : 0 < m := by simp only [Clause.modulus] at hc; omega
    rw [clauseB, transB_iff hm (reps_ok _ hc)]
    · simp only [List.forall_mem_map, Clause.Holds]
      have key : ∀ (u : V3) (p : List (Int × Word)), InMT n.latticeSymbol m ((polyMat m1 m2 p).mulVec u) ↔
          ∃ q, SpaceGroup n (translate q) ∧ polyEv m1.act m2.act u.pt p = q.smul m := by
        intro u p
        rw [polyEv_eq]
        constructor
        · rintro ⟨q, hq, e⟩
          exact ⟨q.pt, (h.translate_iff _).2 ⟨q, rfl, hq⟩, by rw [e, V3.pt_smul]⟩
        · rintro ⟨q, hq, e⟩
          obtain ⟨q, rfl, hq'⟩ := (h.translate_iff _).1 hq
          exact ⟨q, hq', V3.pt_inj (by rw [e, V3.pt_smul])⟩
      simp only [key]
      constructor
      · rintro ⟨u, hu, hl⟩
        exact ⟨u.pt, (h.translate_iff _).2 ⟨u, rfl, hu⟩, hl⟩
      · rintro ⟨u, hu, hl⟩
        obtain ⟨u, rfl, hu'⟩ := (h.translate_iff _).1 hu
        exact ⟨u, hu', hl⟩
    · intro d hd
      obtain ⟨lit, _, rfl⟩ := List.mem_map.1 hd
      exact polyMat_keeps k1 k2 _

/-- A clause does not depend on the translations of the operations modulo the lattice. -/
theorem Clause.holds_lattice {G : (Pt → Pt) → Prop} (hadd : ∀ u v, G (translate u) → G (translate v) → G (translate (u.add v)))
    {f g : Pt → Pt} (hf : AffineMap' f) (hg : AffineMap' g) {p q p' q' : Pt} (hp : G (translate p)) (hq : G (translate q))
    (hp' : p'.add p = Pt.zero) (hq' : q'.add q = Pt.zero) (hG : G (translate p')) (hG' : G (translate q')) (c : Clause) :
    c.Holds G (translate p ∘ f) (translate q ∘ g) ↔ c.Holds G f g := by
  have hcomp : ∀ (u p : Pt) (f : Pt → Pt), translate u ∘ translate p ∘ f = translate (p.add u) ∘ f := by
    intro u p f; funext r; ext <;> simp [translate, Pt.add] <;> ring
  have hz : ∀ (f : Pt → Pt), translate Pt.zero ∘ f = f := by
    intro f; funext r; ext <;> simp [translate, Pt.add, Pt.zero]
  have hassoc : ∀ (u a : Pt) , a.add (u.add (Pt.zero)) = a.add u := by
    intro u a; ext <;> simp [Pt.add, Pt.zero]
  cases c with
  | lift m lits =>
    constructor
    · rintro ⟨u, v, hu, hv, h⟩
      simp only [hcomp] at h
      exact ⟨_, _, hadd _ _ hp hu, hadd _ _ hq hv, h⟩
    · rintro ⟨u, v, hu, hv, h⟩
      refine ⟨_, _, hadd _ _ hG hu, hadd _ _ hG' hv, ?_⟩
      simp only [hcomp]
      have e1 : p.add (p'.add u) = u := by
        have := congrArg (·.add u) hp'
        simp only [Pt.add, Pt.zero, Pt.mk.injEq] at this ⊢
        obtain ⟨a, b, c⟩ := this
        ext <;> simp only [] <;> linarith
      have e2 : q.add (q'.add v) = v := by
        have := congrArg (·.add v) hq'
        simp only [Pt.add, Pt.zero, Pt.mk.injEq] at this ⊢
        obtain ⟨a, b, c⟩ := this
        ext <;> simp only [] <;> linarith
      rw [e1, e2]; exact h
  | trans m lits =>
    have hlin : ∀ (f : Pt → Pt) p r, lin (translate p ∘ f) r = lin f r := by
      intro f p r
      ext <;> simp only [lin, translate, Function.comp_apply, Pt.add, Pt.smul] <;> ring
    have hlin' : ∀ {f : Pt → Pt}, AffineMap' f → ∀ p, AffineMap' (translate p ∘ f) := by
      intro f hf p a b
      rw [hlin]
      have := hf a b
      simp only [Function.comp_apply, translate, this]
      ext <;> simp only [Pt.add] <;> ring
    have hc : ∀ {f g : Pt → Pt}, AffineMap' f → AffineMap' g → ∀ r, lin (f ∘ g) r = lin f (lin g r) := by
      intro f g hf hg r
      apply lin_eq
      intro s
      simp only [Function.comp_apply]
      rw [hg, hf]
    have hev : ∀ (w : Word) r, lin (Word.ev (translate p ∘ f) (translate q ∘ g) w) r = lin (Word.ev f g w) r := by
      intro w
      induction w with
      | nil => intro r; rfl
      | cons b w ih =>
        intro r
        cases b
        · change lin ((translate p ∘ f) ∘ _) r = lin (f ∘ _) r
          rw [hc (hlin' hf p) (affine_ev (hlin' hf p) (hlin' hg q) w), hc hf (affine_ev hf hg w), ih, hlin]
        · change lin ((translate q ∘ g) ∘ _) r = lin (g ∘ _) r
          rw [hc (hlin' hg q) (affine_ev (hlin' hf p) (hlin' hg q) w), hc hg (affine_ev hf hg w), ih, hlin]
    have hpoly : ∀ r (l : List (Int × Word)), polyEv (translate p ∘ f) (translate q ∘ g) r l = polyEv f g r l := by
      intro r l
      induction l with
      | nil => rfl
      | cons a l ih => obtain ⟨c, w⟩ := a; simp only [polyEv, ih, hev]
    simp only [Clause.Holds, hpoly]

/-- Evaluation of a sentence. -/
def Sentence.holdsB (l : LatticeSymbol) (L : List M4) (s : Sentence) : Bool :=
  L.any fun m1 => typeB s.k1 m1.rot && L.any fun m2 => typeB s.k2 m2.rot && (typeB s.k3 (m1.rot.mul m2.rot) &&
    s.clauses.all fun c => clauseB l m1 m2 c.2 == c.1)

/-- The moduli for which representatives have been checked. -/
def Sentence.modsB (s : Sentence) : Bool :=
  s.clauses.all fun c => Nat.beq c.2.modulus 2 || (Nat.beq c.2.modulus 3 || Nat.beq c.2.modulus 4)

theorem Sentence.holdsB_iff {n : HallSymbolNotation} {L : List M4} (h : Described n L) {s : Sentence} (hs : s.modsB = true) :
    s.holdsB n.latticeSymbol L = true ↔ s.Holds (SpaceGroup n) := by
  simp only [Sentence.modsB, List.all_eq_true, Bool.or_eq_true, Nat.beq_eq] at hs
  have hcl : ∀ m1 ∈ L, ∀ m2 ∈ L, ∀ c ∈ s.clauses, (clauseB n.latticeSymbol m1 m2 c.2 == c.1) = true ↔
      (c.2.Holds (SpaceGroup n) m1.act m2.act ↔ c.1 = true) := by
    intro m1 h1 m2 h2 c hc
    rw [beq_iff_eq, Bool.eq_iff_iff, clauseB_iff h h1 h2 c.2 (hs c hc)]
  simp only [Sentence.holdsB, List.any_eq_true, Bool.and_eq_true, List.all_eq_true]
  constructor
  · rintro ⟨m1, h1, k1, m2, h2, k2, k3, hc⟩
    refine ⟨m1.act, m2.act, (h.inGroup m1 h1).2, (h.inGroup m2 h2).2, kindOf_act.2 k1, kindOf_act.2 k2, ?_, ?_⟩
    · rw [M4.act_comp]; exact kindOf_act.2 k3
    · intro c hc'
      exact (hcl m1 h1 m2 h2 c hc').1 (hc c hc')
  · rintro ⟨f, g, hf, hg, k1, k2, k3, hc⟩
    obtain ⟨a, rfl, _, _⟩ := hf.isOp
    obtain ⟨b, rfl, _, _⟩ := hg.isOp
    obtain ⟨m1, h1, r1, t1⟩ := (h.mem_iff a).1 hf
    obtain ⟨m2, h2, r2, t2⟩ := (h.mem_iff b).1 hg
    rw [M4.act_comp] at k3
    rw [kindOf_act] at k1 k2 k3
    refine ⟨m1, h1, by rw [r1]; exact k1, m2, h2, by rw [r2]; exact k2, by rw [r1, r2]; exact k3, fun c hc' => ?_⟩
    rw [hcl m1 h1 m2 h2 c hc', ← hc c hc']
    have hsub : ∀ {a m : M4}, m.rot = a.rot → LatCong n.latticeSymbol a.tr m.tr →
        InT n.latticeSymbol (a.tr.sub m.tr) ∧ a.act = translate (a.tr.sub m.tr).pt ∘ m.act := by
      intro a m hr ht
      constructor
      · obtain ⟨w, hw, c1, c2, c3⟩ := ht
        refine ⟨w, hw, ?_, ?_, ?_⟩ <;> simp only [V3.add, V3.sub, V3.zero] at * <;> omega
      · rw [translate_pt, trMat_comp]
        funext p
        refine M4.act_congr_rot_tr (b := ⟨m.rot, m.tr.add (a.tr.sub m.tr), V3.zero, 1⟩) hr.symm ?_ p
        ext <;> simp [V3.add, V3.sub]
    obtain ⟨i1, e1⟩ := hsub r1 t1
    obtain ⟨i2, e2⟩ := hsub r2 t2
    rw [e1, e2]
    symm
    have hz : ∀ v : V3, v.neg.pt.add v.pt = Pt.zero := by
      intro v; rw [← V3.pt_add]; ext <;> simp [V3.pt, V3.add, V3.neg, Pt.zero]
    refine Clause.holds_lattice ?_ (affine_act _) (affine_act _) ((h.translate_iff _).2 ⟨_, rfl, i1⟩)
      ((h.translate_iff _).2 ⟨_, rfl, i2⟩) (hz _) (hz _) ((h.translate_iff _).2 ⟨_, rfl, i1.neg⟩)
      ((h.translate_iff _).2 ⟨_, rfl, i2.neg⟩) c.2
    intro u v hu hv
    have : translate (u.add v) = translate v ∘ translate u := by
      funext p; ext <;> simp only [translate, Pt.add, Function.comp_apply] <;> ring
    rw [this]
    exact hv.comp hu

end Verif
