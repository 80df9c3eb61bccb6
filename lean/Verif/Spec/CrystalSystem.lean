import Verif.Model.CrystalSystem
import Verif.Spec.CrystalClass

/-!
# Specification: crystal systems

From the International Tables: by the operations of the point group, and by the space-group number.
-/

namespace Verif

/-- The crystal system of a point group with `c t` operations of each kind `t`: hexagonal with an operation of order 6 (6
or 6-bar), cubic with more than one threefold axis, trigonal with one, tetragonal with an operation of order 4 (4 or
4-bar), orthorhombic with more than two operations 2 and m, monoclinic with one or two, triclinic without. -/
def InSystem (c : RotationType → Nat) : CrystalSystem → Prop
  | .Hexagonal => 0 < c .N6 + c .M6
  | .Cubic => 2 < c .N3
  | .Trigonal => c .N3 = 2 ∧ c .N6 + c .M6 = 0
  | .Tetragonal => c .N3 = 0 ∧ 0 < c .N4 + c .M4
  | .Orthorhombic => c .N3 = 0 ∧ c .N4 + c .M4 = 0 ∧ 2 < c .N2 + c .M
  | .Monoclinic => c .N3 = 0 ∧ c .N4 + c .M4 = 0 ∧ (c .N2 + c .M = 1 ∨ c .N2 + c .M = 2)
  | .Triclinic => c .N3 = 0 ∧ c .N4 + c .M4 = 0 ∧ c .N2 + c .M = 0

/-- The crystal system of a space-group number. -/
def systemOfNumber (k : Nat) : CrystalSystem :=
  if k ≤ 2 then .Triclinic else if k ≤ 15 then .Monoclinic else if k ≤ 74 then .Orthorhombic
  else if k ≤ 142 then .Tetragonal else if k ≤ 167 then .Trigonal else if k ≤ 194 then .Hexagonal else .Cubic

/-- How many of the positions are of a kind, by `rotation_type`. -/
def GeneralPositions.kindCount (g : GeneralPositions) (t : RotationType) : Nat :=
  (g.corePositionSet.filter fun m => decide (m.rotationType = some t)).length

end Verif
