import Verif.Spec.Rotation
import Verif.Spec.Group

/-!
# Specification: crystal classes of the space-group numbers

Taken from the International Tables for Crystallography, Vol. A, not from the code.
-/

namespace Verif

/-- The leading decimal number of a code such as `68:1cab` (the space-group number). -/
def spaceGroupNumber (code : String) : Nat :=
  (code.toList.takeWhile fun c => '0' ≤ c && c ≤ '9').foldl (fun acc c => 10 * acc + (c.toNat - 48)) 0

/-- The order of the rotation (of the rotation part, for the types with a bar). -/
def RotationType.fold : RotationType → Nat
  | .E | .I => 1
  | .N2 | .M => 2
  | .N3 | .M3 => 3
  | .N4 | .M4 => 4
  | .N6 | .M6 => 6

/-- `r` is an operation of kind `t`: a rotation of exactly that order, or minus such a rotation. -/
def M3.IsKind (r : M3) (t : RotationType) : Prop :=
  if t.improper then r.neg.det = 1 ∧ r.neg.HasOrder t.fold else r.det = 1 ∧ r.HasOrder t.fold

/-- How many operations of each kind a point group has. -/
structure ClassCounts where
  e : Nat := 1
  n2 : Nat := 0
  n3 : Nat := 0
  n4 : Nat := 0
  n6 : Nat := 0
  i : Nat := 0
  m : Nat := 0
  m3 : Nat := 0
  m4 : Nat := 0
  m6 : Nat := 0
deriving DecidableEq

/-- The count for one kind. -/
def ClassCounts.get (c : ClassCounts) : RotationType → Nat
  | .E => c.e
  | .N2 => c.n2
  | .N3 => c.n3
  | .N4 => c.n4
  | .N6 => c.n6
  | .I => c.i
  | .M => c.m
  | .M3 => c.m3
  | .M4 => c.m4
  | .M6 => c.m6

/-- The order of the point group. -/
def ClassCounts.order (c : ClassCounts) : Nat :=
  c.e + c.n2 + c.n3 + c.n4 + c.n6 + c.i + c.m + c.m3 + c.m4 + c.m6

/-- The crystal classes: last space-group number of the class, and its operations. -/
def crystalClasses : List (Nat × ClassCounts) := [
  (1, {}),                                                            -- 1
  (2, { i := 1 }),                                                    -- -1
  (5, { n2 := 1 }),                                                   -- 2
  (9, { m := 1 }),                                                    -- m
  (15, { n2 := 1, i := 1, m := 1 }),                                  -- 2/m
  (24, { n2 := 3 }),                                                  -- 222
  (46, { n2 := 1, m := 2 }),                                          -- mm2
  (74, { n2 := 3, i := 1, m := 3 }),                                  -- mmm
  (80, { n2 := 1, n4 := 2 }),                                         -- 4
  (82, { n2 := 1, m4 := 2 }),                                         -- -4
  (88, { n2 := 1, n4 := 2, i := 1, m := 1, m4 := 2 }),                -- 4/m
  (98, { n2 := 5, n4 := 2 }),                                         -- 422
  (110, { n2 := 1, n4 := 2, m := 4 }),                                -- 4mm
  (122, { n2 := 3, m := 2, m4 := 2 }),                                -- -42m
  (142, { n2 := 5, n4 := 2, i := 1, m := 5, m4 := 2 }),               -- 4/mmm
  (146, { n3 := 2 }),                                                 -- 3
  (148, { n3 := 2, i := 1, m3 := 2 }),                                -- -3
  (155, { n2 := 3, n3 := 2 }),                                        -- 32
  (161, { n3 := 2, m := 3 }),                                         -- 3m
  (167, { n2 := 3, n3 := 2, i := 1, m := 3, m3 := 2 }),               -- -3m
  (173, { n2 := 1, n3 := 2, n6 := 2 }),                               -- 6
  (174, { n3 := 2, m := 1, m6 := 2 }),                                -- -6
  (176, { n2 := 1, n3 := 2, n6 := 2, i := 1, m := 1, m3 := 2, m6 := 2 }), -- 6/m
  (182, { n2 := 7, n3 := 2, n6 := 2 }),                               -- 622
  (186, { n2 := 1, n3 := 2, n6 := 2, m := 6 }),                       -- 6mm
  (190, { n2 := 3, n3 := 2, m := 4, m6 := 2 }),                       -- -6m2
  (194, { n2 := 7, n3 := 2, n6 := 2, i := 1, m := 7, m3 := 2, m6 := 2 }), -- 6/mmm
  (199, { n2 := 3, n3 := 8 }),                                        -- 23
  (206, { n2 := 3, n3 := 8, i := 1, m := 3, m3 := 8 }),               -- m-3
  (214, { n2 := 9, n3 := 8, n4 := 6 }),                               -- 432
  (220, { n2 := 3, n3 := 8, m := 6, m4 := 6 }),                       -- -43m
  (230, { n2 := 9, n3 := 8, n4 := 6, i := 1, m := 9, m3 := 8, m4 := 6 })] -- m-3m

/-- The class of a space-group number (nothing for 0 or above 230). -/
def crystalClass (num : Nat) : Option ClassCounts :=
  if num = 0 then none else (crystalClasses.find? fun c => num ≤ c.1).map (·.2)

/-- The map seen after moving the origin: `p ↦ f(p - q) + q`. -/
def movedBy (q : Pt) (f : Pt → Pt) : Pt → Pt :=
  fun p => let r := f ⟨p.x - q.x, p.y - q.y, p.z - q.z⟩; ⟨r.x + q.x, r.y + q.y, r.z + q.z⟩

/-- The two groups agree after a change of origin. -/
def SameUpToOrigin (n n' : HallSymbolNotation) : Prop :=
  ∃ q : Pt, ∀ f, SpaceGroup n f ↔ SpaceGroup n' (movedBy q f)

/-- The change of coordinates `p ↦ (1/d) A p + q`. -/
def changeOfBasis (a : M3) (d : Nat) (q : Pt) : Pt → Pt := fun p =>
  ⟨(a.m11 * p.x + a.m12 * p.y + a.m13 * p.z) / d + q.x,
   (a.m21 * p.x + a.m22 * p.y + a.m23 * p.z) / d + q.y,
   (a.m31 * p.x + a.m32 * p.y + a.m33 * p.z) / d + q.z⟩

/-- The two groups are of the same type: an orientation-preserving change of basis and origin turns one into the other.
(`f'` is `f` written in the new coordinates.) -/
def SameType (n n' : HallSymbolNotation) : Prop :=
  ∃ (a : M3) (d : Nat) (q : Pt), 0 < d ∧ 0 < a.det ∧
    ∀ f f' : Pt → Pt, changeOfBasis a d q ∘ f = f' ∘ changeOfBasis a d q → (SpaceGroup n f ↔ SpaceGroup n' f')

end Verif
