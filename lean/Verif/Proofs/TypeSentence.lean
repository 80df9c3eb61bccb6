import Verif.Proofs.SameType
import Verif.Proofs.RowCheck

/-! # Statements about a group that do not depend on the coordinates

A sentence says that the group has two operations of given kinds whose products satisfy some equations modulo `m` times the
lattice. Groups of the same type satisfy the same sentences. -/

namespace Verif

namespace Pt

/-- Sum of coordinates. -/
def add (p q : Pt) : Pt := ⟨p.x + q.x, p.y + q.y, p.z + q.z⟩

/-- Integer multiple. -/
def smul (c : Int) (p : Pt) : Pt := ⟨c * p.x, c * p.y, c * p.z⟩

/-- The origin. -/
def zero : Pt := ⟨0, 0, 0⟩

end Pt

/-- The translation by `q`. -/
def translate (q : Pt) : Pt → Pt := fun p => p.add q

/-- A product of two operations: `false` is the first, `true` the second. -/
abbrev Word := List Bool

/-- The value of a word. -/
def Word.ev (f g : Pt → Pt) : Word → (Pt → Pt)
  | [] => id
  | false :: w => f ∘ Word.ev f g w
  | true :: w => g ∘ Word.ev f g w

/-- The linear part applied to `q`. -/
def lin (f : Pt → Pt) (q : Pt) : Pt := (f q).add ((f Pt.zero).smul (-1))

/-- An integer combination of words applied to a vector. -/
def polyEv (f g : Pt → Pt) (q : Pt) : List (Int × Word) → Pt
  | [] => Pt.zero
  | (c, w) :: l => ((lin (Word.ev f g w) q).smul c).add (polyEv f g q l)

/-- Two maps agree up to `m` times a translation of the group. -/
def EqMod (G : (Pt → Pt) → Prop) (m : Nat) (a b : Pt → Pt) : Prop :=
  ∃ q, G (translate q) ∧ a = translate (q.smul m) ∘ b

/-- A clause about two operations, modulo `m`: equations between words for some choice of the two operations' translations,
or equations of integer combinations of words applied to some lattice translation. -/
inductive Clause
  | lift (m : Nat) (lits : List (Bool × Word × Word))
  | trans (m : Nat) (lits : List (Bool × List (Int × Word)))

/-- Meaning of a clause. -/
def Clause.Holds (G : (Pt → Pt) → Prop) (f g : Pt → Pt) : Clause → Prop
  | .lift m lits => ∃ u v, G (translate u) ∧ G (translate v) ∧ ∀ l ∈ lits,
      (EqMod G m (Word.ev (translate u ∘ f) (translate v ∘ g) l.2.1) (Word.ev (translate u ∘ f) (translate v ∘ g) l.2.2) ↔
        l.1 = true)
  | .trans m lits => ∃ u, G (translate u) ∧ ∀ l ∈ lits,
      ((∃ q, G (translate q) ∧ polyEv f g u l.2 = q.smul m) ↔ l.1 = true)

/-- The kind of an operation, by determinant and trace. -/
def KindOf (f : Pt → Pt) (k : RotationType) : Prop := ∃ m : M4, f = m.act ∧ typeB k m.rot = true

/-- A sentence: two operations `f`, `g` of given kinds, with `f ∘ g` of a given kind, and clauses that hold or fail. -/
structure Sentence where
  k1 : RotationType
  k2 : RotationType
  k3 : RotationType
  clauses : List (Bool × Clause)

/-- Meaning of a sentence. -/
def Sentence.Holds (G : (Pt → Pt) → Prop) (s : Sentence) : Prop :=
  ∃ f g, G f ∧ G g ∧ KindOf f s.k1 ∧ KindOf g s.k2 ∧ KindOf (f ∘ g) s.k3 ∧
    ∀ c ∈ s.clauses, (c.2.Holds G f g ↔ c.1 = true)

/-! ## Transfer along a change of coordinates -/

/-- A change of coordinates that turns one group of affine maps into another. -/
structure Transfer (G G' : (Pt → Pt) → Prop) where
  φ : Pt → Pt
  ψ : Pt → Pt
  A : Pt → Pt
  B : Pt → Pt
  φψ : φ ∘ ψ = id
  ψφ : ψ ∘ φ = id
  mem : ∀ f, G f ↔ G' (φ ∘ f ∘ ψ)
  A_add : ∀ p q, A (p.add q) = (A p).add (A q)
  A_smul : ∀ c p, A (p.smul c) = (A p).smul c
  B_add : ∀ p q, B (p.add q) = (B p).add (B q)
  B_smul : ∀ c p, B (p.smul c) = (B p).smul c
  AB : ∀ q, A (B q) = q
  BA : ∀ q, B (A q) = q
  φ_add : ∀ p q, φ (p.add q) = (φ p).add (A q)
  ψ_add : ∀ p q, ψ (p.add q) = (ψ p).add (B q)
  kind : ∀ f k, G f → (KindOf f k ↔ KindOf (φ ∘ f ∘ ψ) k)
  affine : ∀ f, G f → ∀ p q, f (p.add q) = (f p).add (lin f q)
  affine' : ∀ f, G' f → ∀ p q, f (p.add q) = (f p).add (lin f q)

namespace Transfer

variable {G G' : (Pt → Pt) → Prop}

/-- An operation in the new coordinates. -/
def conj (t : Transfer G G') (f : Pt → Pt) : Pt → Pt := t.φ ∘ f ∘ t.ψ

theorem back_conj (t : Transfer G G') (f : Pt → Pt) : t.ψ ∘ t.conj f ∘ t.φ = f := by
  have h1 := t.ψφ
  calc t.ψ ∘ (t.φ ∘ f ∘ t.ψ) ∘ t.φ = (t.ψ ∘ t.φ) ∘ f ∘ (t.ψ ∘ t.φ) := rfl
    _ = f := by rw [h1]; rfl

theorem conj_back (t : Transfer G G') (f : Pt → Pt) : t.φ ∘ (t.ψ ∘ f ∘ t.φ) ∘ t.ψ = f := by
  have h1 := t.φψ
  calc t.φ ∘ (t.ψ ∘ f ∘ t.φ) ∘ t.ψ = (t.φ ∘ t.ψ) ∘ f ∘ (t.φ ∘ t.ψ) := rfl
    _ = f := by rw [h1]; rfl

/-- The inverse change of coordinates. -/
def symm (t : Transfer G G') : Transfer G' G where
  φ := t.ψ
  ψ := t.φ
  A := t.B
  B := t.A
  φψ := t.ψφ
  ψφ := t.φψ
  mem f := by rw [t.mem, conj_back]
  A_add := t.B_add
  A_smul := t.B_smul
  B_add := t.A_add
  B_smul := t.A_smul
  AB := t.BA
  BA := t.AB
  φ_add := t.ψ_add
  ψ_add := t.φ_add
  kind f k h := by
    have := t.kind (t.ψ ∘ f ∘ t.φ) k (by rw [t.mem, conj_back]; exact h)
    rw [conj_back] at this
    exact this.symm
  affine := t.affine'
  affine' := t.affine

theorem conj_comp (t : Transfer G G') (f g : Pt → Pt) : t.conj (f ∘ g) = t.conj f ∘ t.conj g := by
  have h1 := t.ψφ
  calc t.φ ∘ (f ∘ g) ∘ t.ψ = t.φ ∘ f ∘ id ∘ g ∘ t.ψ := rfl
    _ = t.φ ∘ f ∘ (t.ψ ∘ t.φ) ∘ g ∘ t.ψ := by rw [h1]

theorem conj_id (t : Transfer G G') : t.conj id = id := t.φψ

theorem conj_translate (t : Transfer G G') (q : Pt) : t.conj (translate q) = translate (t.A q) := by
  funext p
  simp only [conj, Function.comp_apply, translate, t.φ_add]
  rw [show t.φ (t.ψ p) = p from congrFun t.φψ p]

theorem mem_translate (t : Transfer G G') {q : Pt} (h : G (translate q)) : G' (translate (t.A q)) := by
  rw [← t.conj_translate]; exact (t.mem _).1 h

theorem conj_ev (t : Transfer G G') (f g : Pt → Pt) (w : Word) : t.conj (Word.ev f g w) = Word.ev (t.conj f) (t.conj g) w := by
  induction w with
  | nil => exact t.conj_id
  | cons b w ih => cases b <;> simp only [Word.ev, conj_comp, ih]

theorem eqMod (t : Transfer G G') {m : Nat} {a b : Pt → Pt} (h : EqMod G m a b) : EqMod G' m (t.conj a) (t.conj b) := by
  obtain ⟨q, hq, rfl⟩ := h
  exact ⟨t.A q, t.mem_translate hq, by rw [conj_comp, conj_translate, t.A_smul]⟩

theorem symm_conj (t : Transfer G G') (f : Pt → Pt) : t.symm.conj (t.conj f) = f := t.back_conj f

theorem eqMod_iff (t : Transfer G G') {m : Nat} {a b : Pt → Pt} : EqMod G' m (t.conj a) (t.conj b) ↔ EqMod G m a b := by
  refine ⟨fun h => ?_, t.eqMod⟩
  have := t.symm.eqMod h
  rwa [symm_conj, symm_conj] at this

end Transfer

/-- A map with a linear part. -/
def AffineMap' (f : Pt → Pt) : Prop := ∀ p q, f (p.add q) = (f p).add (lin f q)

theorem Pt.add_neg_self (p q : Pt) : (p.add q).add (p.smul (-1)) = q := by
  ext <;> simp [Pt.add, Pt.smul]

theorem lin_eq {f : Pt → Pt} {q r : Pt} (h : ∀ p, f (p.add q) = (f p).add r) : lin f q = r := by
  have h0 := h Pt.zero
  have e : Pt.zero.add q = q := by ext <;> simp [Pt.add, Pt.zero]
  rw [e] at h0
  rw [lin, h0, Pt.add_neg_self]

theorem AffineMap'.comp {f g : Pt → Pt} (hf : AffineMap' f) (hg : AffineMap' g) : AffineMap' (f ∘ g) := by
  intro p q
  have : lin (f ∘ g) q = lin f (lin g q) := by
    apply lin_eq
    intro p
    simp only [Function.comp_apply]
    rw [hg, hf]
  rw [this]
  simp only [Function.comp_apply]
  rw [hg, hf]

theorem affine_id : AffineMap' id := by
  intro p q
  ext <;> simp [lin, Pt.add, Pt.smul, Pt.zero]

theorem affine_ev {f g : Pt → Pt} (hf : AffineMap' f) (hg : AffineMap' g) (w : Word) : AffineMap' (Word.ev f g w) := by
  induction w with
  | nil => exact affine_id
  | cons b w ih => cases b
                   · exact hf.comp ih
                   · exact hg.comp ih

namespace Transfer

variable {G G' : (Pt → Pt) → Prop}

theorem conj_lin (t : Transfer G G') {f : Pt → Pt} (hf : AffineMap' f) (q : Pt) : lin (t.conj f) (t.A q) = t.A (lin f q) := by
  apply lin_eq
  intro p
  simp only [conj, Function.comp_apply]
  rw [t.ψ_add, t.BA, hf, t.φ_add]

theorem A_zero (t : Transfer G G') : t.A Pt.zero = Pt.zero := by
  have := t.A_smul 0 Pt.zero
  have e : ∀ p : Pt, p.smul 0 = Pt.zero := by intro p; ext <;> simp [Pt.smul, Pt.zero]
  rwa [e, e] at this

theorem conj_polyEv (t : Transfer G G') {f g : Pt → Pt} (hf : AffineMap' f) (hg : AffineMap' g) (q : Pt)
    (l : List (Int × Word)) : polyEv (t.conj f) (t.conj g) (t.A q) l = t.A (polyEv f g q l) := by
  induction l with
  | nil => exact t.A_zero.symm
  | cons a l ih =>
    obtain ⟨c, w⟩ := a
    simp only [polyEv, t.A_add, t.A_smul, ih]
    rw [← conj_ev, t.conj_lin (affine_ev hf hg w)]

theorem clause (t : Transfer G G') {f g : Pt → Pt} (hf : AffineMap' f) (hg : AffineMap' g) {c : Clause}
    (h : c.Holds G f g) : c.Holds G' (t.conj f) (t.conj g) := by
  cases c with
  | lift m lits =>
    obtain ⟨u, v, hu, hv, h⟩ := h
    refine ⟨t.A u, t.A v, t.mem_translate hu, t.mem_translate hv, fun l hl => ?_⟩
    rw [← h l hl, ← t.eqMod_iff, conj_ev, conj_ev, conj_comp, conj_comp, conj_translate, conj_translate]
  | trans m lits =>
    obtain ⟨u, hu, h⟩ := h
    refine ⟨t.A u, t.mem_translate hu, fun l hl => ?_⟩
    rw [← h l hl, t.conj_polyEv hf hg]
    constructor
    · rintro ⟨q, hq, e⟩
      refine ⟨t.B q, t.symm.mem_translate hq, ?_⟩
      have := congrArg t.B e
      rwa [t.BA, t.B_smul] at this
    · rintro ⟨q, hq, e⟩
      exact ⟨t.A q, t.mem_translate hq, by rw [e, t.A_smul]⟩

theorem sentence (t : Transfer G G') {s : Sentence} (hcomp : ∀ f g, G f → G g → G (f ∘ g)) (h : s.Holds G) : s.Holds G' := by
  obtain ⟨f, g, hf, hg, k1, k2, k3, h⟩ := h
  refine ⟨t.conj f, t.conj g, (t.mem _).1 hf, (t.mem _).1 hg, (t.kind _ _ hf).1 k1, (t.kind _ _ hg).1 k2, ?_, fun c hc => ?_⟩
  · rw [← conj_comp]; exact (t.kind _ _ (hcomp _ _ hf hg)).1 k3
  · rw [← h c hc]
    refine ⟨fun h' => ?_, t.clause (t.affine _ hf) (t.affine _ hg)⟩
    have := t.symm.clause (f := t.conj f) (g := t.conj g) (t.affine' _ ((t.mem _).1 hf)) (t.affine' _ ((t.mem _).1 hg)) h'
    rwa [symm_conj, symm_conj] at this

end Transfer

/-! ## Groups of the same type -/

/-- The linear part of a change of basis. -/
def basisPart (a : M3) (d : Nat) : Pt → Pt := fun p =>
  ⟨(a.m11 * p.x + a.m12 * p.y + a.m13 * p.z) / d,
   (a.m21 * p.x + a.m22 * p.y + a.m23 * p.z) / d,
   (a.m31 * p.x + a.m32 * p.y + a.m33 * p.z) / d⟩

theorem basisPart_add (a : M3) (d : Nat) (p q : Pt) : basisPart a d (p.add q) = (basisPart a d p).add (basisPart a d q) := by
  ext <;> simp only [basisPart, Pt.add] <;> ring

theorem basisPart_smul (a : M3) (d : Nat) (c : Int) (p : Pt) : basisPart a d (p.smul c) = (basisPart a d p).smul c := by
  ext <;> simp only [basisPart, Pt.smul] <;> ring

theorem changeOfBasis_add (a : M3) (d : Nat) (s p q : Pt) :
    changeOfBasis a d s (p.add q) = (changeOfBasis a d s p).add (basisPart a d q) := by
  ext <;> simp only [basisPart, changeOfBasis, Pt.add] <;> ring

theorem basis_inverse {a b : M3} {d e : Nat} {q s : Pt} (h : changeOfBasis a d q ∘ changeOfBasis b e s = id) (p : Pt) :
    basisPart a d (basisPart b e p) = p := by
  have h0 := congrFun h Pt.zero
  have hp := congrFun h (Pt.zero.add p)
  simp only [Function.comp_apply, id] at h0 hp
  rw [changeOfBasis_add, changeOfBasis_add, h0] at hp
  have e : ∀ r : Pt, Pt.zero.add r = r := by intro r; ext <;> simp [Pt.zero, Pt.add]
  rwa [e, e] at hp

/-- An integer matrix applied to a point. -/
def M3.app (a : M3) (p : Pt) : Pt :=
  ⟨a.m11 * p.x + a.m12 * p.y + a.m13 * p.z, a.m21 * p.x + a.m22 * p.y + a.m23 * p.z,
   a.m31 * p.x + a.m32 * p.y + a.m33 * p.z⟩

theorem M3.app_mul (a b : M3) (p : Pt) : (a.mul b).app p = a.app (b.app p) := by
  ext <;> simp only [M3.app, M3.mul] <;> push_cast <;> ring

theorem M3.app_inj {a b : M3} (h : ∀ p, a.app p = b.app p) : a = b := by
  have hx := h ⟨1, 0, 0⟩
  have hy := h ⟨0, 1, 0⟩
  have hz := h ⟨0, 0, 1⟩
  simp [M3.app] at hx hy hz
  ext <;> tauto

theorem M3.app_smul (a : M3) (c : Int) (p : Pt) : a.app (p.smul c) = (a.app p).smul c := by
  ext <;> simp only [M3.app, Pt.smul] <;> ring

theorem M3.app_add (a : M3) (p q : Pt) : a.app (p.add q) = (a.app p).add (a.app q) := by
  ext <;> simp only [M3.app, Pt.add] <;> ring

theorem lin_act (m : M4) (q : Pt) : lin m.act q = m.rot.app q := by
  ext <;> simp only [lin, M4.act, Pt.add, Pt.smul, Pt.zero, M3.app] <;> push_cast <;> ring

theorem affine_act (m : M4) : AffineMap' m.act := by
  intro p q
  rw [lin_act]
  ext <;> simp only [M4.act, Pt.add, M3.app] <;> ring

theorem basisPart_app (a : M3) {d : Nat} (hd : 0 < d) (q : Pt) : basisPart a d (q.smul d) = a.app q := by
  have hd' : (d : ℚ) ≠ 0 := by exact_mod_cast hd.ne'
  ext <;> simp only [basisPart, Pt.smul, M3.app] <;> push_cast <;> field_simp

/-- Rotation parts of an operation before and after a change of basis. -/
theorem rot_conj {a : M3} {d : Nat} {q : Pt} (hd : 0 < d) {m m' : M4}
    (h : changeOfBasis a d q ∘ m.act = m'.act ∘ changeOfBasis a d q) : a.mul m.rot = m'.rot.mul a := by
  apply M3.app_inj
  intro p
  have h0 := congrFun h Pt.zero
  have hp := congrFun h (Pt.zero.add (p.smul d))
  simp only [Function.comp_apply] at h0 hp
  rw [affine_act, changeOfBasis_add, changeOfBasis_add, affine_act, h0, lin_act, lin_act, basisPart_app a hd, M3.app_smul,
    basisPart_app a hd] at hp
  rw [M3.app_mul, M3.app_mul]
  have e : ∀ u v w : Pt, u.add v = u.add w → v = w := by
    intro u v w h
    simp only [Pt.add, Pt.mk.injEq, add_right_inj] at h
    ext <;> tauto
  exact e _ _ _ hp

theorem conj_det {a r r' : M3} (ha : a.det ≠ 0) (h : a.mul r = r'.mul a) : r.det = r'.det := by
  have := congrArg M3.det h
  rw [M3.det_mul, M3.det_mul, mul_comm] at this
  exact mul_right_cancel₀ ha this

/-- The adjugate. -/
def M3.adj (a : M3) : M3 :=
  ⟨a.m22 * a.m33 - a.m23 * a.m32, a.m13 * a.m32 - a.m12 * a.m33, a.m12 * a.m23 - a.m13 * a.m22,
   a.m23 * a.m31 - a.m21 * a.m33, a.m11 * a.m33 - a.m13 * a.m31, a.m13 * a.m21 - a.m11 * a.m23,
   a.m21 * a.m32 - a.m22 * a.m31, a.m12 * a.m31 - a.m11 * a.m32, a.m11 * a.m22 - a.m12 * a.m21⟩

theorem conj_trace {a r r' : M3} (ha : a.det ≠ 0) (h : a.mul r = r'.mul a) : r.trace = r'.trace := by
  have h1 : ((a.mul r).mul a.adj).trace = a.det * r.trace := by
    simp only [M3.mul, M3.adj, M3.trace, M3.det]; ring
  have h2 : ((r'.mul a).mul a.adj).trace = a.det * r'.trace := by
    simp only [M3.mul, M3.adj, M3.trace, M3.det]; ring
  rw [h, h2] at h1
  exact (mul_left_cancel₀ ha h1).symm

theorem kindOf_act {m : M4} {k : RotationType} : KindOf m.act k ↔ typeB k m.rot = true := by
  constructor
  · rintro ⟨m', e, h⟩
    rw [(M4.act_inj e).1]; exact h
  · exact fun h => ⟨m, rfl, h⟩

theorem affine_of_mem {n : HallSymbolNotation} {f : Pt → Pt} (h : SpaceGroup n f) : AffineMap' f := by
  obtain ⟨g, rfl, _, _⟩ := h.isOp
  exact affine_act g

/-- A change of basis between groups of the same type. -/
theorem SameType.transfer {n n' : HallSymbolNotation} (h : SameType n n') :
    ∃ (t : Transfer (SpaceGroup n) (SpaceGroup n')) (a : M3) (d : Nat) (q : Pt), 0 < d ∧ 0 < a.det ∧
      t.φ = changeOfBasis a d q ∧ t.A = basisPart a d := by
  obtain ⟨a, d, q, hd, ha, h⟩ := h
  obtain ⟨b, e, s, he, hb, h1, h2⟩ := changeOfBasis_inv a d q hd ha
  have hmem : ∀ f, SpaceGroup n f ↔ SpaceGroup n' (changeOfBasis a d q ∘ f ∘ changeOfBasis b e s) := by
    intro f
    refine h f _ ?_
    calc changeOfBasis a d q ∘ f = changeOfBasis a d q ∘ f ∘ (changeOfBasis b e s ∘ changeOfBasis a d q) := by rw [h2]; rfl
      _ = (changeOfBasis a d q ∘ f ∘ changeOfBasis b e s) ∘ changeOfBasis a d q := rfl
  refine ⟨⟨changeOfBasis a d q, changeOfBasis b e s, basisPart a d, basisPart b e, h1, h2, hmem, basisPart_add a d,
    basisPart_smul a d, basisPart_add b e, basisPart_smul b e, basis_inverse h1, basis_inverse h2, changeOfBasis_add a d q,
    changeOfBasis_add b e s, ?_, fun f hf => affine_of_mem hf, fun f hf => affine_of_mem hf⟩, a, d, q, hd, ha, rfl, rfl⟩
  intro f k hf
  have hf' := (hmem f).1 hf
  obtain ⟨m, rfl, _, _⟩ := hf.isOp
  obtain ⟨m', e', _, _⟩ := hf'.isOp
  rw [e', kindOf_act, kindOf_act]
  have hc : changeOfBasis a d q ∘ m.act = m'.act ∘ changeOfBasis a d q := by
    rw [← e']
    calc changeOfBasis a d q ∘ m.act
        = changeOfBasis a d q ∘ m.act ∘ (changeOfBasis b e s ∘ changeOfBasis a d q) := by rw [h2]; rfl
      _ = _ := rfl
  have hr := rot_conj hd hc
  unfold typeB
  rw [conj_det ha.ne' hr, conj_trace ha.ne' hr]

theorem SameType.sentence {n n' : HallSymbolNotation} (h : SameType n n') (s : Sentence) :
    s.Holds (SpaceGroup n) ↔ s.Holds (SpaceGroup n') := by
  obtain ⟨t, -⟩ := h.transfer
  exact ⟨t.sentence fun f g hf hg => .comp hf hg, t.symm.sentence fun f g hf hg => .comp hf hg⟩

end Verif
