import Verif.Proofs.RowCheck
import Verif.Spec.Setting

/-! # The check made for every row in a derived setting -/

namespace Verif

/-- A row of the full table in a derived setting: its place, the place of the row it starts from, the place of the setting
in `settings`, and the two Hall symbols. -/
structure SettingRow where
  i : Nat
  j : Nat
  k : Nat
  hall : String
  base : String

/-- The matrix whose columns are the new axes. -/
def NewAxes.mat (e : NewAxes) : M3 :=
  ⟨e.first.x, e.second.x, e.third.x, e.first.y, e.second.y, e.third.y, e.first.z, e.second.z, e.third.z⟩

/-- From new to old coordinates. -/
def NewAxes.back (e : NewAxes) : Move := ⟨e.mat, ⟨0, 0, 0⟩, e.d⟩

/-- The cofactors. -/
def M3.adjoint (a : M3) : M3 :=
  ⟨a.m22 * a.m33 - a.m23 * a.m32, a.m13 * a.m32 - a.m12 * a.m33, a.m12 * a.m23 - a.m13 * a.m22,
   a.m23 * a.m31 - a.m21 * a.m33, a.m11 * a.m33 - a.m13 * a.m31, a.m13 * a.m21 - a.m11 * a.m23,
   a.m21 * a.m32 - a.m22 * a.m31, a.m12 * a.m31 - a.m11 * a.m32, a.m11 * a.m22 - a.m12 * a.m21⟩

/-- From old to new coordinates (the check does not rely on this being right). -/
def NewAxes.there (e : NewAxes) : Move := ⟨e.mat.adjoint.map fun v => v * e.d / e.mat.det, ⟨0, 0, 0⟩, 1⟩

/-- The check of one row. -/
def SettingRow.check (r : SettingRow) : Bool :=
  match settings[r.k]?, parseHallSymbol r.hall.toList, parseHallSymbol r.base.toList with
  | some (_, _, e), some (n', []), some (n, []) =>
    match n.seitzMatrices, n'.seitzMatrices with
    | some ms, some ms' =>
      inverseCheck e.back e.there && moveCheck e.back n' ms' n (certList n ms) && moveCheck e.there n ms n' (certList n' ms')
    | _, _ => false
  | _, _, _ => false

theorem NewAxes.back_map (e : NewAxes) (p : Pt) : e.back.map p = e.old p := by
  simp only [Move.map, NewAxes.back, NewAxes.mat, changeOfBasis, NewAxes.old]
  ext <;> simp <;> ring

theorem SettingRow.check_sound {r : SettingRow} (h : r.check = true) : ∃ name base e n n', settings[r.k]? = some (name, base, e) ∧
    parseHallSymbol r.hall.toList = some (n', []) ∧ parseHallSymbol r.base.toList = some (n, []) ∧ InNewAxes e n n' := by
  unfold SettingRow.check at h
  split at h
  · rename_i name base e n' n hk hp' hp
    split at h
    · rename_i ms ms' hms hms'
      simp only [Bool.and_eq_true] at h
      refine ⟨name, base, e, n, n', hk, hp', hp, ?_⟩
      intro f f' hff
      refine (moves_iff hms' hms (certList_inGroup hms') (certList_inGroup hms) h.1.1 h.1.2 h.2 ?_).symm
      funext p
      simp only [Function.comp_apply, NewAxes.back_map]
      exact hff p
    · cases h
  · cases h

/-- Two rows of the full table that differ in the origin choice: their places, Hall symbols, and the shift of the origin in 24ths
of the cell. -/
structure OriginRow where
  i : Nat
  j : Nat
  first : String
  second : String
  q : V3

/-- The shift as a change of coordinates. -/
def shiftMove (q : V3) : Move := ⟨⟨2, 0, 0, 0, 2, 0, 0, 0, 2⟩, q, 2⟩

/-- The check of one pair. -/
def OriginRow.check (r : OriginRow) : Bool :=
  match parseHallSymbol r.first.toList, parseHallSymbol r.second.toList with
  | some (n, []), some (n', []) =>
    match n.seitzMatrices, n'.seitzMatrices with
    | some ms, some ms' =>
      n'.latticeSymbol.minusSign && checkCert n ms (certList n ms) &&
      (certList n ms).all (fun m => ! (m.rot.eqB M4.inversion.rot && latCongB n.latticeSymbol M4.inversion.tr m.tr)) &&
      inverseCheck (shiftMove r.q) (shiftMove r.q.neg) && moveCheck (shiftMove r.q) n ms n' (certList n' ms') &&
      moveCheck (shiftMove r.q.neg) n' ms' n (certList n ms)
    | _, _ => false
  | _, _ => false

theorem latCongB_of {l : LatticeSymbol} {a b : V3} (h : LatCong l a b) : latCongB l a b = true := by
  obtain ⟨t, ht, h1, h2, h3⟩ := h
  unfold latCongB
  refine List.any_eq_true.2 ⟨t, ht, ?_⟩
  simp only [Bool.and_eq_true, beq_iff_eq]
  simp only [V3.add_x, V3.add_y, V3.add_z] at h1 h2 h3
  refine ⟨⟨?_, ?_⟩, ?_⟩ <;> omega

theorem OriginRow.check_sound {r : OriginRow} (h : r.check = true) : ∃ n n', parseHallSymbol r.first.toList = some (n, []) ∧
    parseHallSymbol r.second.toList = some (n', []) ∧ (∀ f, SpaceGroup n f ↔ SpaceGroup n' (movedBy (in24ths r.q) f)) ∧
    SpaceGroup n' (fun p => ⟨-p.x, -p.y, -p.z⟩) ∧ ¬ SpaceGroup n (fun p => ⟨-p.x, -p.y, -p.z⟩) := by
  unfold OriginRow.check at h
  split at h
  · rename_i n n' hp hp'
    split at h
    · rename_i ms ms' hms hms'
      simp only [Bool.and_eq_true, List.all_eq_true, Bool.not_eq_true'] at h
      obtain ⟨⟨⟨⟨⟨h1, h2⟩, h3⟩, h4⟩, h5⟩, h6⟩ := h
      refine ⟨n, n', hp, hp', fun f => moves_iff hms hms' (certList_inGroup hms) (certList_inGroup hms') h4 h5 h6 ?_,
        .inversion h1, ?_⟩
      · have hm : ∀ p, (shiftMove r.q).map p = ⟨p.x + r.q.x / 24, p.y + r.q.y / 24, p.z + r.q.z / 24⟩ := by
          intro p
          simp only [Move.map, changeOfBasis, shiftMove]
          ext <;> simp only [] <;> push_cast <;> ring
        funext p
        simp only [Function.comp_apply, hm, movedBy, in24ths]
        ext <;> simp
      · intro hf
        rw [show (fun p : Pt => (⟨-p.x, -p.y, -p.z⟩ : Pt)) = M4.inversion.act from inversion_act] at hf
        obtain ⟨m, hm, hr, hl⟩ := Certificate.listed hms (checkCert_sound h2) hf
        have := h3 m hm
        rw [Bool.and_eq_false_iff] at this
        rcases this with h | h
        · rw [M3.eqB_iff.2 hr] at h; cases h
        · rw [latCongB_of hl] at h; cases h
    · cases h
  · cases h

end Verif
