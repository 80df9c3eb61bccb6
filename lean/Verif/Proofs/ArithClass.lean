import Verif.Proofs.SpaceLike
import Verif.Proofs.Certificate

/-!
# Groups with the lattice of whole cells and given rotations, up to a change of basis

Checked data for a finite group of integer matrices: generators, enough relations, a splitting of the translations of the
generators into a change of origin and finitely many cases, and for every case a change of basis to a representative.
-/

namespace Verif.Arith

/-- Three things of a kind. -/
structure Tri (α : Type) where
  a : α
  b : α
  c : α

/-- By place. -/
def Tri.nth {α : Type} (t : Tri α) : Nat → α
  | 0 => t.a
  | 1 => t.b
  | _ => t.c

/-- The zero matrix. -/
def m0 : M3 := ⟨0, 0, 0, 0, 0, 0, 0, 0, 0⟩

/-- A product of generators: its rotation and, for each generator, the coefficient of the generator's translation. -/
structure Sym where
  rot : M3
  co : Tri M3

/-- The product of a word. -/
def sym (g : Tri M3) : List Nat → Sym
  | [] => ⟨M3.one, ⟨m0, m0, m0⟩⟩
  | i :: w =>
    let s := sym g w
    match i with
    | 0 => ⟨g.a.mul s.rot, ⟨M3.one.add (g.a.mul s.co.a), g.a.mul s.co.b, g.a.mul s.co.c⟩⟩
    | 1 => ⟨g.b.mul s.rot, ⟨g.b.mul s.co.a, M3.one.add (g.b.mul s.co.b), g.b.mul s.co.c⟩⟩
    | _ => ⟨g.c.mul s.rot, ⟨g.c.mul s.co.a, g.c.mul s.co.b, M3.one.add (g.c.mul s.co.c)⟩⟩

/-- The translation of a product. -/
def Sym.at (s : Sym) (v : Tri Pt) : Pt := ((s.co.a.onPt v.a).plus (s.co.b.onPt v.b)).plus (s.co.c.onPt v.c)

/-- The same for integer translations. -/
def Sym.atZ (s : Sym) (v : Tri V3) : V3 := ((s.co.a.mulVec v.a).add (s.co.b.mulVec v.b)).add (s.co.c.mulVec v.c)

theorem sym_mem {S : (Pt → Pt) → Prop} {L : Pt → Prop} {P : Set M3} (h : SpaceLike S L P) (h0 : L ⟨0, 0, 0⟩) {g : Tri M3}
    {v : Tri Pt} (ha : S (aff g.a v.a)) (hb : S (aff g.b v.b)) (hc : S (aff g.c v.c)) (w : List Nat) :
    S (aff (sym g w).rot ((sym g w).at v)) := by
  induction w with
  | nil =>
    have e : Sym.at (sym g []) v = ⟨0, 0, 0⟩ := by
      simp [Sym.at, sym, M3.onPt, m0, Pt.plus]
    rw [e]
    exact (h.lat _).2 h0
  | cons i w ih =>
    have step : ∀ (r : M3) (t u : Pt), S (aff r t) → u = (r.onPt (Sym.at (sym g w) v)).plus t → S (aff (r.mul (sym g w).rot) u) := by
      intro r t u hr e
      have := h.comp _ _ hr ih
      rwa [aff_comp, ← e] at this
    have lin : ∀ (r : M3) (x y z : M3) (p q s : Pt), (((r.mul x).onPt p).plus ((r.mul y).onPt q)).plus ((r.mul z).onPt s)
        = r.onPt (((x.onPt p).plus (y.onPt q)).plus (z.onPt s)) := by
      intro r x y z p q s
      simp only [M3.onPt, Pt.plus, M3.mul]
      push_cast
      ext <;> simp only [] <;> ring
    rcases i with _ | _ | i
    · refine step _ _ _ ha ?_
      simp only [sym, Sym.at]
      rw [← lin]
      simp only [M3.onPt, Pt.plus, M3.add, M3.one]
      push_cast
      ext <;> simp only [] <;> ring
    · refine step _ _ _ hb ?_
      simp only [sym, Sym.at]
      rw [← lin]
      simp only [M3.onPt, Pt.plus, M3.add, M3.one]
      push_cast
      ext <;> simp only [] <;> ring
    · refine step _ _ _ hc ?_
      simp only [sym, Sym.at]
      rw [← lin]
      simp only [M3.onPt, Pt.plus, M3.add, M3.one]
      push_cast
      ext <;> simp only [] <;> ring

/-- The product of a word of other matrices. -/
def prod (g : Tri M3) : List Nat → M3
  | [] => M3.one
  | i :: w => (match i with | 0 => g.a | 1 => g.b | _ => g.c).mul (prod g w)

theorem sym_rot (g : Tri M3) (w : List Nat) : (sym g w).rot = prod g w := by
  induction w with
  | nil => rfl
  | cons i w ih => rcases i with _ | _ | i <;> simp only [sym, prod, ih]

/-- A part of the cocycle: order, direction, and the functional on the relations. -/
structure Term where
  d : Nat
  e : Tri V3
  k : List V3

/-- A change of basis to a representative. -/
structure Cert where
  rep : Nat
  x : M3
  q : V3
  w : Tri (List Nat)

/-- A group of integer matrices with what is needed to list the groups of maps over it. -/
structure Cls where
  gens : Tri M3
  words : List (List Nat)
  rels : List (List Nat × List Nat)
  terms : List Term
  s : Tri M3
  n : Nat
  m : Nat
  reps : List (Tri V3)
  certs : List Cert

/-- The group. -/
def Cls.grp (c : Cls) : Set M3 := {r | ∃ w ∈ c.words, (sym c.gens w).rot = r}

/-- The coefficients of a relation. -/
def relCo (g : Tri M3) (r : List Nat × List Nat) : Tri M3 :=
  let s := sym g r.1
  let t := sym g r.2
  ⟨s.co.a.sub t.co.a, s.co.b.sub t.co.b, s.co.c.sub t.co.c⟩

/-- The functional of a term on the translations of the generators. -/
def funl : List V3 → List (Tri M3) → Tri V3
  | k :: ks, r :: rs =>
    let f := funl ks rs
    ⟨(M3.vecMul k r.a).add f.a, (M3.vecMul k r.b).add f.b, (M3.vecMul k r.c).add f.c⟩
  | _, _ => ⟨V3.zero, V3.zero, V3.zero⟩

/-- The sum of `(n/d) e ⊗ f` over the terms, for one row of blocks. -/
def block (n : Nat) (rs : List (Tri M3)) (i : Nat) : List Term → Tri M3
  | [] => ⟨m0, m0, m0⟩
  | t :: ts =>
    let f := funl t.k rs
    let e := V3.smul (n / t.d : Nat) (t.e.nth i)
    let b := block n rs i ts
    ⟨(M3.outer e f.a).add b.a, (M3.outer e f.b).add b.b, (M3.outer e f.c).add b.c⟩

/-- `n` times the identity is a change of origin plus the terms. -/
def rowCheck (c : Cls) (rs : List (Tri M3)) (i : Nat) : Bool :=
  let d := M3.one.sub (c.gens.nth i)
  let b := block c.n rs i c.terms
  let id := M3.one.map (fun v => v * c.n)
  ((d.mul c.s.a).add b.a).eqB (bif Nat.beq i 0 then id else m0) &&
  ((d.mul c.s.b).add b.b).eqB (bif Nat.beq i 1 then id else m0) &&
  ((d.mul c.s.c).add b.c).eqB (bif Nat.beq i 2 then id else m0)

/-- The cases, in units of `1/m`. -/
def cases (m : Nat) : List Term → List (Tri V3)
  | [] => [⟨V3.zero, V3.zero, V3.zero⟩]
  | t :: ts => (List.range t.d).flatMap fun a => (cases m ts).map fun w =>
      let f := fun (e v : V3) => (V3.smul (a * (m / t.d) : Nat) e).add v
      ⟨f t.e.a w.a, f t.e.b w.b, f t.e.c w.c⟩

/-- One generator of the representative is found in the changed group. -/
def genCheck (c : Cls) (w : Tri V3) (x : M3) (q : V3) (g : M3) (u : V3) (word : List Nat) : Bool :=
  let s := sym c.gens word
  let t := (((x.mulVec (s.atZ w)).add q).sub (g.mulVec q)).sub u
  (x.mul s.rot).eqB (g.mul x) && (t.x % c.m == 0) && (t.y % c.m == 0) && (t.z % c.m == 0)

/-- One case. -/
def caseCheck (c : Cls) (w : Tri V3) (k : Cert) : Bool :=
  match c.reps[k.rep]? with
  | none => false
  | some u =>
    decide (k.x.det = 1) && genCheck c w k.x k.q c.gens.a u.a k.w.a && genCheck c w k.x k.q c.gens.b u.b k.w.b &&
      genCheck c w k.x k.q c.gens.c u.c k.w.c

/-- All cases. -/
def casesCheck (c : Cls) : List (Tri V3) → List Cert → Bool
  | [], _ => true
  | w :: ws, k :: ks => caseCheck c w k && casesCheck c ws ks
  | _ :: _, [] => false

/-- No matrix twice. -/
def nodupB : List M3 → Bool
  | [] => true
  | r :: rs => rs.all (fun r' => ! r.eqB r') && nodupB rs

/-- The matrix is among the words. -/
def isWord (l : List M3) (g : M3) : Bool := l.any fun r => r.eqB g

/-- The data of a class are right. -/
def Cls.check (c : Cls) : Bool :=
  let l := c.words.map (fun w => (sym c.gens w).rot)
  let rs := c.rels.map (relCo c.gens)
  nodupB l && isWord l c.gens.a && isWord l c.gens.b && isWord l c.gens.c &&
  c.rels.all (fun r => (sym c.gens r.1).rot.eqB (sym c.gens r.2).rot) &&
  Nat.blt 0 c.n && Nat.blt 0 c.m && c.terms.all (fun t => Nat.blt 0 t.d && Nat.beq (c.n % t.d) 0 && Nat.beq (c.m % t.d) 0) &&
  rowCheck c rs 0 && rowCheck c rs 1 && rowCheck c rs 2 && casesCheck c (cases c.m c.terms) c.certs

/-! ## What a successful check means -/

theorem nodupB_iff {l : List M3} (h : nodupB l = true) : l.Nodup := by
  induction l with
  | nil => exact List.nodup_nil
  | cons r rs ih =>
    simp only [nodupB, Bool.and_eq_true, List.all_eq_true, Bool.not_eq_true', Bool.eq_false_iff, ne_eq, M3.eqB_iff] at h
    exact List.nodup_cons.2 ⟨fun hm => h.1 r hm rfl, ih h.2⟩

/-- All rotations correspond when the generators do. -/
theorem conj_grp {c : Cls} (hnd : (c.words.map (fun w => (sym c.gens w).rot)).Nodup) {P : Set M3} (hfin : P.Finite)
    (hcard : P.ncard ≤ c.words.length) (hone : M3.one ∈ P) (hmul : ∀ r ∈ P, ∀ r' ∈ P, r.mul r' ∈ P) {a : M3} (ha : 0 < a.det)
    {r : Tri M3} (ma : r.a ∈ P) (mb : r.b ∈ P) (mc : r.c ∈ P) (ea : a.mul r.a = c.gens.a.mul a)
    (eb : a.mul r.b = c.gens.b.mul a) (ec : a.mul r.c = c.gens.c.mul a) :
    (∀ x ∈ P, ∃ p ∈ c.grp, a.mul x = p.mul a) ∧ (∀ p ∈ c.grp, ∃ x ∈ P, a.mul x = p.mul a) := by
  classical
  have hm : ∀ w, prod r w ∈ P := by
    intro w
    induction w with
    | nil => exact hone
    | cons i w ih => rcases i with _ | _ | i <;> exact hmul _ (by assumption) _ ih
  have he : ∀ w, a.mul (prod r w) = (prod c.gens w).mul a := by
    intro w
    induction w with
    | nil => simp only [prod, M3.mul_one, M3.one_mul]
    | cons i w ih =>
      rcases i with _ | _ | i <;> simp only [prod]
      · rw [← M3.mul_assoc, ea, M3.mul_assoc, ih, M3.mul_assoc]
      · rw [← M3.mul_assoc, eb, M3.mul_assoc, ih, M3.mul_assoc]
      · rw [← M3.mul_assoc, ec, M3.mul_assoc, ih, M3.mul_assoc]
  have hnd' : (c.words.map (prod r)).Nodup := by
    have h0 : (c.words.map (fun w => (sym c.gens w).rot)) = c.words.map (prod c.gens) := by
      simp only [sym_rot]
    rw [h0] at hnd
    have hw : c.words.Nodup := List.Nodup.of_map _ hnd
    refine (List.nodup_map_iff_inj_on hw).2 ?_
    intro w h w' h' e
    have : prod c.gens w = prod c.gens w' := M3.cancel_right ha (by rw [← he, ← he, e])
    exact (List.nodup_map_iff_inj_on hw).1 hnd w h w' h' this
  have hP : P = ((c.words.map (prod r)).toFinset : Set M3) := by
    symm
    refine Set.eq_of_subset_of_ncard_le ?_ ?_ hfin
    · intro x hx
      simp only [List.coe_toFinset, Set.mem_ofPred_eq, List.mem_map] at hx
      obtain ⟨w, -, rfl⟩ := hx
      exact hm w
    · rw [Set.ncard_coe_finset, List.toFinset_card_of_nodup hnd', List.length_map]
      exact hcard
  constructor
  · intro x hx
    rw [hP] at hx
    simp only [List.coe_toFinset, Set.mem_ofPred_eq, List.mem_map] at hx
    obtain ⟨w, hw, rfl⟩ := hx
    exact ⟨prod c.gens w, ⟨w, hw, sym_rot _ _⟩, he w⟩
  · rintro p ⟨w, hw, rfl⟩
    exact ⟨prod r w, hm w, by rw [sym_rot]; exact he w⟩

theorem grp_finite (c : Cls) : c.grp.Finite := by
  classical
  refine Set.Finite.subset (c.words.map (fun w => (sym c.gens w).rot)).toFinset.finite_toSet ?_
  rintro r ⟨w, hw, rfl⟩
  simp only [List.coe_toFinset, Set.mem_ofPred_eq, List.mem_map]
  exact ⟨w, hw, rfl⟩

theorem grp_ncard (c : Cls) : c.grp.ncard ≤ c.words.length := by
  classical
  have : c.grp = ((c.words.map (fun w => (sym c.gens w).rot)).toFinset : Set M3) := by
    ext r
    simp only [Cls.grp, List.coe_toFinset, Set.mem_ofPred_eq, List.mem_map]
  rw [this, Set.ncard_coe_finset]
  exact (List.toFinset_card_le _).trans (by rw [List.length_map])

theorem integral_zero : Integral ⟨0, 0, 0⟩ := ⟨V3.zero, by simp [V3.whole, V3.zero]⟩

/-- The group is fixed by the translations of its generators. -/
theorem determined {c : Cls} {S T : (Pt → Pt) → Prop} (hS : SpaceLike S Integral c.grp) (hT : SpaceLike T Integral c.grp)
    {v : Tri Pt} (sa : S (aff c.gens.a v.a)) (sb : S (aff c.gens.b v.b)) (sc : S (aff c.gens.c v.c))
    (ta : T (aff c.gens.a v.a)) (tb : T (aff c.gens.b v.b)) (tc : T (aff c.gens.c v.c)) {f : Pt → Pt} (hf : S f) : T f := by
  obtain ⟨r, ⟨w, hw, rfl⟩, t, rfl⟩ := hS.ops f hf
  have h1 := sym_mem hS integral_zero sa sb sc w
  have h2 := sym_mem hT integral_zero ta tb tc w
  have e : t = Pt.plus (Pt.plus t (Pt.scale (-1) ((sym c.gens w).at v))) ((sym c.gens w).at v) := by
    simp only [Pt.plus, Pt.scale]
    ext <;> simp only [] <;> ring
  exact hT.add_lat h2 (hS.diff hf h1 e) e

end Verif.Arith
