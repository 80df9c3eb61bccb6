import Verif.Spec.FixedPoint
import Verif.Proofs.RowFacts
import Verif.Proofs.Mirror

/-! # Which tabulated groups have operations with fixed points -/

namespace Verif

/-- A product of generators. -/
def wordOp (gs : List M4) : List Nat → M4
  | [] => M4.identity
  | k :: w =>
    let a := gs.getD k M4.identity
    let b := wordOp gs w
    ⟨a.rot.mul b.rot, (a.rot.mulVec b.tr).add a.tr, V3.zero, 1⟩

theorem wordOp_mem {n : HallSymbolNotation} {gs : List M4} (h : ∀ g ∈ gs, SpaceGroup n g.act) (w : List Nat) :
    SpaceGroup n (wordOp gs w).act := by
  have h0 : SpaceGroup n M4.identity.act := by
    have : M4.identity.act = id := M4.act_mk_one _ _ _ rfl
    rw [this]; exact .one
  induction w with
  | nil => exact h0
  | cons k w ih =>
    have ha : SpaceGroup n (gs.getD k M4.identity).act := by
      rw [List.getD_eq_getElem?_getD]
      cases e : gs[k]? with
      | none => exact h0
      | some g => exact h g (List.mem_of_getElem? e)
    have := ha.comp ih
    rw [M4.act_comp] at this
    exact this

/-- Place in the default table, a product of generators, a centring translation, and a point in twenty-fourths. -/
structure FixRow where
  i : Nat
  w : List Nat
  v : V3
  p : V3

/-- The rotation is not the identity, and the operation moves the point by whole cells. -/
def fixCheck (m : M4) (v p : V3) : Bool :=
  !(m.rot.eqB M3.one) &&
  (let d := ((m.rot.mulVec p).add (V3.smul 2 (m.tr.add v))).sub p
   d.x % 24 == 0 && d.y % 24 == 0 && d.z % 24 == 0)

/-- The data of a row are right. -/
def FixRow.check (r : FixRow) : Bool :=
  match HallSymbolNotation.tryFromStr (Data.defaultHallName.getD r.i "").toList with
  | some n =>
    match n.seitzMatrices with
    | some ms => n.latticeSymbol.translations.any (fun v => decide (v = r.v)) && fixCheck (wordOp (n.gens ms) r.w) r.v r.p
    | none => false
  | none => false

/-- What the check of a row means. -/
theorem FixRow.sound {r : FixRow} (h : r.check = true) {s : String} {n : HallSymbolNotation}
    (hs : Data.defaultHallName[r.i]? = some s) (hn : HallSymbolNotation.tryFromStr s.toList = some n) : ¬ FixedPointFree n := by
  unfold FixRow.check at h
  rw [List.getD_eq_getElem?_getD, hs, Option.getD_some, hn] at h
  simp only at h
  split at h
  · rename_i ms hms
    simp only [Bool.and_eq_true, List.any_eq_true, decide_eq_true_iff] at h
    obtain ⟨⟨v, hv, rfl⟩, hf⟩ := h
    have hm := wordOp_mem (fun g hg => (gens_inGroup hms g hg).2) r.w
    generalize wordOp (n.gens ms) r.w = m at hm hf
    simp only [fixCheck, Bool.and_eq_true, Bool.not_eq_true', beq_iff_eq] at hf
    obtain ⟨h1, ⟨h2, h3⟩, h4⟩ := hf
    obtain ⟨kx, ex⟩ := Int.dvd_of_emod_eq_zero h2
    obtain ⟨ky, ey⟩ := Int.dvd_of_emod_eq_zero h3
    obtain ⟨kz, ez⟩ := Int.dvd_of_emod_eq_zero h4
    intro free
    have hg := (SpaceGroup.cell (n := n) ⟨-kx, -ky, -kz⟩).comp ((SpaceGroup.centring hv).comp hm)
    have := free _ hg ⟨r.p.x / 24, r.p.y / 24, r.p.z / 24⟩ (by
      simp only [V3.add, V3.sub, V3.smul, M3.mulVec] at ex ey ez
      have fx := congrArg (Int.cast (R := ℚ)) ex
      have fy := congrArg (Int.cast (R := ℚ)) ey
      have fz := congrArg (Int.cast (R := ℚ)) ez
      push_cast at fx fy fz
      simp only [Function.comp_apply, M4.act, Pt.addCell, Pt.addTwelfths]
      push_cast
      ext <;> simp only [] <;> linarith)
    have e : m.rot = M3.one := by
      have e0 := congrFun this ⟨0, 0, 0⟩
      have e1 := congrFun this ⟨1, 0, 0⟩
      have e2 := congrFun this ⟨0, 1, 0⟩
      have e3 := congrFun this ⟨0, 0, 1⟩
      simp only [Function.comp_apply, M4.act, Pt.addCell, Pt.addTwelfths, id, Pt.mk.injEq, mul_zero, add_zero, zero_add, mul_one]
        at e0 e1 e2 e3
      obtain ⟨a1, a2, a3⟩ := e0
      obtain ⟨b1, b2, b3⟩ := e1
      obtain ⟨c1, c2, c3⟩ := e2
      obtain ⟨d1, d2, d3⟩ := e3
      have q : ∀ {x : Int} {y : Int}, ((x : ℚ) - y = 0) → x = y := fun h => by
        have := sub_eq_zero.1 h; exact_mod_cast this
      apply M3.ext <;> apply q <;> simp only [M3.one] <;> push_cast <;> linarith
    rw [M3.eqB_iff.2 e] at h1
    cases h1
  · cases h

/-- Every listed operation with a rotation is a screw or a glide: along one of the axes it moves by no whole cell. -/
def freeCheck (l : List V3) (L : List M4) : Bool :=
  L.all fun m => m.rot.eqB M3.one || [⟨1, 0, 0⟩, ⟨0, 1, 0⟩, (⟨0, 0, 1⟩ : V3)].any fun k =>
    decide (m.rot.vecMul k = k) && l.all (fun v => V3.dot k v % 12 == 0) && !(V3.dot k m.tr % 12 == 0)

/-- A row of the default table without fixed points. -/
def freeRow (k : Nat) : Bool :=
  match defaultTable.getHall (k - 1) with
  | none => false
  | some h => match HallSymbolNotation.tryFromStr h.toList with
    | none => false
    | some n => match n.seitzMatrices with
      | none => false
      | some ms => checkCert n ms (certList n ms) && freeCheck n.latticeSymbol.translations (certList n ms)

theorem free_of_check {n : HallSymbolNotation} {ms L : List M4} (hms : n.seitzMatrices = some ms) (hc : Certificate n ms L)
    (h : freeCheck n.latticeSymbol.translations L = true) : FixedPointFree n := by
  intro f hf p hp
  obtain ⟨g, rfl, -, -⟩ := hf.isOp
  obtain ⟨m, hm, e1, w, hw, e2⟩ := hc.listed hms hf
  have hx := congrArg Pt.x hp
  have hy := congrArg Pt.y hp
  have hz := congrArg Pt.z hp
  simp only [M4.act] at hx hy hz
  have hk := List.all_eq_true.1 h m hm
  rw [Bool.or_eq_true, M3.eqB_iff] at hk
  rcases hk with hk | hk
  · rw [← e1, hk] at hx hy hz
    simp only [M3.one] at hx hy hz
    push_cast at hx hy hz
    have tx : (g.tr.x : ℚ) = 0 := by linarith
    have ty : (g.tr.y : ℚ) = 0 := by linarith
    have tz : (g.tr.z : ℚ) = 0 := by linarith
    funext x
    simp only [M4.act, ← e1, hk, M3.one, tx, ty, tz, id]
    ext <;> simp
  · obtain ⟨k, -, hk⟩ := List.any_eq_true.1 hk
    simp only [Bool.and_eq_true, decide_eq_true_iff, List.all_eq_true, beq_iff_eq, Bool.not_eq_true', beq_eq_false_iff_ne] at hk
    obtain ⟨⟨k1, k2⟩, k3⟩ := hk
    exfalso
    apply k3
    have hz' : V3.dot k g.tr = 0 := by
      rw [e1] at k1
      have r1 := congrArg (fun v : V3 => (v.x : ℚ)) k1
      have r2 := congrArg (fun v : V3 => (v.y : ℚ)) k1
      have r3 := congrArg (fun v : V3 => (v.z : ℚ)) k1
      simp only [M3.vecMul] at r1 r2 r3
      push_cast at r1 r2 r3
      have : ((V3.dot k g.tr : Int) : ℚ) = 0 := by
        simp only [V3.dot]
        push_cast
        linear_combination 12 * k.x * hx + 12 * k.y * hy + 12 * k.z * hz - 12 * p.x * r1 - 12 * p.y * r2 - 12 * p.z * r3
      exact_mod_cast this
    have kw := k2 w hw
    obtain ⟨⟨x, c1⟩, ⟨y, c2⟩, ⟨z, c3⟩⟩ := e2
    obtain ⟨u, hu⟩ := Int.dvd_of_emod_eq_zero kw
    refine Int.emod_eq_zero_of_dvd ⟨-u - (k.x * x + k.y * y + k.z * z), ?_⟩
    simp only [V3.dot, V3.add] at *
    linear_combination hz' - k.x * c1 - k.y * c2 - k.z * c3 - hu

end Verif
