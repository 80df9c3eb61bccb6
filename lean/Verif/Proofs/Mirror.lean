import Verif.Spec.Hand
import Verif.Proofs.SameType
import Verif.Proofs.Certificate
import Verif.Model.Database

/-! # Changes of basis of negative determinant -/

namespace Verif

/-- The matrix with all signs changed. -/
def M3.opp (a : M3) : M3 := ⟨-a.m11, -a.m12, -a.m13, -a.m21, -a.m22, -a.m23, -a.m31, -a.m32, -a.m33⟩

theorem M3.det_opp (a : M3) : a.opp.det = -a.det := by simp only [M3.det, M3.opp]; ring

def Pt.opp (p : Pt) : Pt := ⟨-p.x, -p.y, -p.z⟩

theorem Pt.opp_opp : Pt.opp ∘ Pt.opp = id := by funext p; simp [Pt.opp]

theorem cob_opp (a : M3) (d : Nat) (q : Pt) : changeOfBasis a d q = Pt.opp ∘ changeOfBasis a.opp d q.opp := by
  funext p
  simp only [Function.comp_apply, changeOfBasis, M3.opp, Pt.opp]
  push_cast
  ext <;> simp only [] <;> ring

theorem cob_opp' (a : M3) (d : Nat) (q : Pt) : changeOfBasis a.opp d q = changeOfBasis a d q ∘ Pt.opp := by
  funext p
  simp only [Function.comp_apply, changeOfBasis, M3.opp, Pt.opp]
  push_cast
  ext <;> simp only [] <;> ring

theorem changeOfBasis_inv_neg (a : M3) (d : Nat) (q : Pt) (hd : 0 < d) (ha : a.det < 0) :
    ∃ (b : M3) (e : Nat) (s : Pt), 0 < e ∧ b.det < 0 ∧ changeOfBasis a d q ∘ changeOfBasis b e s = id ∧
      changeOfBasis b e s ∘ changeOfBasis a d q = id := by
  obtain ⟨b, e, s, he, hb, h1, h2⟩ := changeOfBasis_inv a.opp d q.opp hd (by rw [M3.det_opp]; omega)
  refine ⟨b.opp, e, s, he, by rw [M3.det_opp]; omega, ?_, ?_⟩
  · rw [cob_opp a, cob_opp' b]
    calc (Pt.opp ∘ changeOfBasis a.opp d q.opp) ∘ changeOfBasis b e s ∘ Pt.opp
        = Pt.opp ∘ (changeOfBasis a.opp d q.opp ∘ changeOfBasis b e s) ∘ Pt.opp := rfl
      _ = Pt.opp ∘ Pt.opp := by rw [h1]; rfl
      _ = id := Pt.opp_opp
  · rw [cob_opp a, cob_opp' b]
    calc (changeOfBasis b e s ∘ Pt.opp) ∘ Pt.opp ∘ changeOfBasis a.opp d q.opp
        = changeOfBasis b e s ∘ (Pt.opp ∘ Pt.opp) ∘ changeOfBasis a.opp d q.opp := rfl
      _ = changeOfBasis b e s ∘ changeOfBasis a.opp d q.opp := by rw [Pt.opp_opp]; rfl
      _ = id := h2

/-- Composition of two changes of coordinates. -/
theorem conj_trans {φ ψ φ' : Pt → Pt} {S S' S'' : (Pt → Pt) → Prop} (h1 : φ ∘ ψ = id) (h2 : ψ ∘ φ = id)
    (h : ∀ f f' : Pt → Pt, φ ∘ f = f' ∘ φ → (S f ↔ S' f')) (h' : ∀ f f' : Pt → Pt, φ' ∘ f = f' ∘ φ' → (S' f ↔ S'' f'))
    (f f'' : Pt → Pt) (hf : (φ' ∘ φ) ∘ f = f'' ∘ φ' ∘ φ) : S f ↔ S'' f'' := by
  have e1 : φ ∘ f = (φ ∘ f ∘ ψ) ∘ φ := by
    calc φ ∘ f = φ ∘ f ∘ (ψ ∘ φ) := by rw [h2]; rfl
      _ = (φ ∘ f ∘ ψ) ∘ φ := rfl
  have e2 : φ' ∘ (φ ∘ f ∘ ψ) = f'' ∘ φ' := by
    calc φ' ∘ (φ ∘ f ∘ ψ) = ((φ' ∘ φ) ∘ f) ∘ ψ := rfl
      _ = f'' ∘ φ' ∘ (φ ∘ ψ) := by rw [hf]; rfl
      _ = f'' ∘ φ' := by rw [h1]; rfl
  exact (h f _ e1).trans (h' _ f'' e2)

theorem det_mul3 (a b : M3) : (a.mul b).det = a.det * b.det := by simp only [M3.det, M3.mul]; ring

theorem SameType.mirror {n n' n'' : HallSymbolNotation} (h : SameType n n') (h' : MirrorType n' n'') : MirrorType n n'' := by
  obtain ⟨a, d, q, hd, ha, h⟩ := h
  obtain ⟨a', d', q', hd', ha', h'⟩ := h'
  obtain ⟨b, e, s, he, hb, h1, h2⟩ := changeOfBasis_inv a d q hd ha
  refine ⟨a'.mul a, d' * d, changeOfBasis a' d' q' q, Nat.mul_pos hd' hd, by rw [det_mul3]; exact Int.mul_neg_of_neg_of_pos ha' ha, ?_⟩
  rw [← changeOfBasis_comp a a' d d' q q' hd hd']
  exact conj_trans h1 h2 h h'

theorem MirrorType.same {n n' n'' : HallSymbolNotation} (h : MirrorType n n') (h' : SameType n' n'') : MirrorType n n'' := by
  obtain ⟨a, d, q, hd, ha, h⟩ := h
  obtain ⟨a', d', q', hd', ha', h'⟩ := h'
  obtain ⟨b, e, s, he, hb, h1, h2⟩ := changeOfBasis_inv_neg a d q hd ha
  refine ⟨a'.mul a, d' * d, changeOfBasis a' d' q' q, Nat.mul_pos hd' hd, by rw [det_mul3]; exact Int.mul_neg_of_pos_of_neg ha' ha, ?_⟩
  rw [← changeOfBasis_comp a a' d d' q q' hd hd']
  exact conj_trans h1 h2 h h'

theorem MirrorType.twice {n n' n'' : HallSymbolNotation} (h : MirrorType n n') (h' : MirrorType n' n'') : SameType n n'' := by
  obtain ⟨a, d, q, hd, ha, h⟩ := h
  obtain ⟨a', d', q', hd', ha', h'⟩ := h'
  obtain ⟨b, e, s, he, hb, h1, h2⟩ := changeOfBasis_inv_neg a d q hd ha
  refine ⟨a'.mul a, d' * d, changeOfBasis a' d' q' q, Nat.mul_pos hd' hd, by rw [det_mul3]; exact Int.mul_pos_of_neg_of_neg ha' ha, ?_⟩
  rw [← changeOfBasis_comp a a' d d' q q' hd hd']
  exact conj_trans h1 h2 h h'

theorem MirrorType.symm {n n' : HallSymbolNotation} (h : MirrorType n n') : MirrorType n' n := by
  obtain ⟨a, d, q, hd, ha, h⟩ := h
  obtain ⟨b, e, s, he, hb, h1, h2⟩ := changeOfBasis_inv_neg a d q hd ha
  refine ⟨b, e, s, he, hb, fun f f' hf => ?_⟩
  refine (h f' f ?_).symm
  calc changeOfBasis a d q ∘ f' = changeOfBasis a d q ∘ f' ∘ (changeOfBasis b e s ∘ changeOfBasis a d q) := by rw [h2]; rfl
    _ = changeOfBasis a d q ∘ (f' ∘ changeOfBasis b e s) ∘ changeOfBasis a d q := rfl
    _ = (changeOfBasis a d q ∘ changeOfBasis b e s) ∘ f ∘ changeOfBasis a d q := by rw [← hf]; rfl
    _ = f ∘ changeOfBasis a d q := by rw [h1]; rfl

/-- A group with an operation of negative determinant is its own mirror image. -/
theorem mirror_of_improper {n : HallSymbolNotation} {m : M4} (hm : SpaceGroup n m.act)
    (hdet : m.rot.det < 0) : MirrorType n n := by
  have hu : m.rot.Unimod := by
    obtain ⟨m', e, -, hu⟩ := hm.isOp
    rw [(M4.act_inj e).1]; exact hu
  have e : changeOfBasis m.rot 1 ⟨m.tr.x / 12, m.tr.y / 12, m.tr.z / 12⟩ = m.act := by
    funext p
    simp only [changeOfBasis, M4.act]
    push_cast
    ext <;> simp only [] <;> ring
  refine ⟨m.rot, 1, ⟨m.tr.x / 12, m.tr.y / 12, m.tr.z / 12⟩, by decide, hdet, fun f f' hf => ?_⟩
  rw [e] at hf
  have i1 := M4.act_uinv hu
  have i2 := M4.uinv_act hu
  have hi := hm.inv i1 i2
  constructor
  · intro h
    have : f' = (m.act ∘ f) ∘ m.uinv.act := by
      calc f' = f' ∘ (m.act ∘ m.uinv.act) := by rw [i1]; rfl
        _ = (f' ∘ m.act) ∘ m.uinv.act := rfl
        _ = _ := by rw [← hf]
    rw [this]; exact (hm.comp h).comp hi
  · intro h
    have : f = m.uinv.act ∘ (f' ∘ m.act) := by
      calc f = (m.uinv.act ∘ m.act) ∘ f := by rw [i2]; rfl
        _ = m.uinv.act ∘ (m.act ∘ f) := rfl
        _ = _ := by rw [← hf]
    rw [this]; exact hi.comp (h.comp hm)

/-- `e` undoes `c`, and `c` has a negative determinant. -/
def inverseCheckNeg (c e : Move) : Bool :=
  Nat.blt 0 c.d && Nat.blt 0 e.d && decide (c.a.det < 0) &&
  (c.a.mul e.a).eqB (M3.one.map fun v => v * (c.d * e.d)) && (e.a.mul c.a).eqB (M3.one.map fun v => v * (c.d * e.d)) &&
  decide ((c.a.mulVec e.q).add (V3.smul e.d c.q) = V3.zero) && decide ((e.a.mulVec c.q).add (V3.smul c.d e.q) = V3.zero)

theorem mirrorType_of_moves {c e : Move} {n n' : HallSymbolNotation} {ms ms' L L' : List M4}
    (hms : n.seitzMatrices = some ms) (hms' : n'.seitzMatrices = some ms')
    (hL : ∀ m ∈ L, m.Affine ∧ InGroup n m) (hL' : ∀ m ∈ L', m.Affine ∧ InGroup n' m)
    (hi : inverseCheckNeg c e = true) (h1 : moveCheck c n ms n' L' = true) (h2 : moveCheck e n' ms' n L = true) :
    MirrorType n n' := by
  simp only [inverseCheckNeg, Bool.and_eq_true, Nat.blt_eq, decide_eq_true_eq, M3.eqB_iff] at hi
  obtain ⟨⟨⟨⟨⟨⟨hc, he⟩, hneg⟩, i1⟩, i2⟩, i3⟩, i4⟩ := hi
  have ce := map_map hc he i1 i3
  have ec : e.map ∘ c.map = id := map_map he hc (by rw [i2]; congr 1; funext v; ring) i4
  refine ⟨c.a, c.d, ⟨c.q.x / (12 * c.d), c.q.y / (12 * c.d), c.q.z / (12 * c.d)⟩, hc, hneg, fun f f' hff => ?_⟩
  change c.map ∘ f = f' ∘ c.map at hff
  constructor
  · intro hf
    obtain ⟨g, hg, e1⟩ := moveCheck_sound hc hms hL' h1 hf
    have : f' = g := by
      calc f' = (f' ∘ c.map) ∘ e.map := by rw [Function.comp_assoc, ce]; rfl
        _ = (g ∘ c.map) ∘ e.map := by rw [← hff, e1]
        _ = g := by rw [Function.comp_assoc, ce]; rfl
    rw [this]; exact hg
  · intro hf'
    obtain ⟨g, hg, e1⟩ := moveCheck_sound he hms' hL h2 hf'
    have : f = g := by
      calc f = e.map ∘ (c.map ∘ f) := by rw [← Function.comp_assoc, ec]; rfl
        _ = (e.map ∘ f') ∘ c.map := by rw [hff]; rfl
        _ = g ∘ (e.map ∘ c.map) := by rw [e1]; rfl
        _ = g := by rw [ec]; rfl
    rw [this]; exact hg

/-- Place in the default table, change of basis and its inverse. -/
structure MirrorRow where
  i : Nat
  c : Move
  e : Move

/-- The data of a row are right. -/
def MirrorRow.check (r : MirrorRow) : Bool :=
  match HallSymbolNotation.tryFromStr (Data.defaultHallName.getD r.i "").toList,
      HallSymbolNotation.tryFromStr (Data.defaultHallName.getD (mirrorNumber (r.i + 1) - 1) "").toList with
  | some n, some n' =>
    match n.seitzMatrices, n'.seitzMatrices with
    | some ms, some ms' =>
      inverseCheckNeg r.c r.e && moveCheck r.c n ms n' (certList n' ms') && moveCheck r.e n' ms' n (certList n ms)
    | _, _ => false
  | _, _ => false

/-- Some generator has a negative determinant. -/
def improperB (h : String) : Bool :=
  match HallSymbolNotation.tryFromStr h.toList with
  | some n =>
    match n.seitzMatrices with
    | some ms => (n.gens ms).any fun m => decide (m.rot.det < 0)
    | none => false
  | none => false

/-- What the check of a row means. -/
theorem MirrorRow.sound {r : MirrorRow} (h : r.check = true) {s s' : String} {n n' : HallSymbolNotation}
    (hs : Data.defaultHallName[r.i]? = some s) (hs' : Data.defaultHallName[mirrorNumber (r.i + 1) - 1]? = some s')
    (hn : HallSymbolNotation.tryFromStr s.toList = some n) (hn' : HallSymbolNotation.tryFromStr s'.toList = some n') :
    MirrorType n n' := by
  unfold MirrorRow.check at h
  rw [List.getD_eq_getElem?_getD, List.getD_eq_getElem?_getD, hs, hs', Option.getD_some, Option.getD_some, hn, hn'] at h
  simp only at h
  split at h
  · rename_i ms ms' hms hms'
    simp only [Bool.and_eq_true] at h
    exact mirrorType_of_moves hms hms' (certList_inGroup hms) (certList_inGroup hms') h.1.1 h.1.2 h.2
  · cases h

theorem improper_mirror {s : String} {n : HallSymbolNotation} (h : improperB s = true)
    (hn : HallSymbolNotation.tryFromStr s.toList = some n) : MirrorType n n := by
  unfold improperB at h
  rw [hn] at h
  simp only at h
  split at h
  · rename_i ms hms
    obtain ⟨m, hm, hd⟩ := List.any_eq_true.1 h
    exact mirror_of_improper (gens_inGroup hms m hm).2 (of_decide_eq_true hd)
  · cases h

end Verif
