import Verif.Spec.CrystalClass

/-!
# Specification: the settings named by the codes of the table

A code such as `68:2cab` is a space-group number and, after the colon, a setting: an origin choice `1` or `2` and the new
axes in terms of the old ones (`cab`: the new first axis is the old `c`, the new second axis the old `a`, the new third
axis the old `b`); for monoclinic groups the unique axis, possibly with the sign, and the cell choice; for rhombohedral
lattices hexagonal or rhombohedral axes. The axes are those of the International Tables for Crystallography, Vol. A, not of
the code.
-/

namespace Verif

/-- The part of a code after the colon; empty if there is none. -/
def settingName (code : String) : List Char := (code.toList.dropWhile (· != ':')).drop 1

/-- Three new axes in terms of the old ones: `first` is `d` times the new first axis, and so on. -/
structure NewAxes where
  first : V3
  second : V3
  third : V3
  d : Nat := 1

namespace NewAxes

def a : V3 := ⟨1, 0, 0⟩
def b : V3 := ⟨0, 1, 0⟩
def c : V3 := ⟨0, 0, 1⟩
/-- `-a-c`. -/
def ac : V3 := ⟨-1, 0, -1⟩

/-- The old coordinates of the point whose new coordinates are `p`. -/
def old (e : NewAxes) (p : Pt) : Pt :=
  ⟨(p.x * e.first.x + p.y * e.second.x + p.z * e.third.x) / e.d,
   (p.x * e.first.y + p.y * e.second.y + p.z * e.third.y) / e.d,
   (p.x * e.first.z + p.y * e.second.z + p.z * e.third.z) / e.d⟩

end NewAxes

/-- The group of `n'` is the group of `n` written in the axes `e`, with the same origin: whenever `f` and `f'` are the same
motion in old and in new coordinates, one group contains `f` iff the other contains `f'`. -/
def InNewAxes (e : NewAxes) (n n' : HallSymbolNotation) : Prop :=
  ∀ f f' : Pt → Pt, (∀ p, e.old (f' p) = f (e.old p)) → (SpaceGroup n f ↔ SpaceGroup n' f')

open NewAxes in
/-- The settings: name, name of the setting it starts from, new axes. -/
def settings : List (String × String × NewAxes) := [
  -- orthorhombic
  ("cab", "", ⟨c, a, b, 1⟩), ("bca", "", ⟨b, c, a, 1⟩), ("ba-c", "", ⟨b, a, c.neg, 1⟩), ("-cba", "", ⟨c.neg, b, a, 1⟩),
  ("a-cb", "", ⟨a, c.neg, b, 1⟩),
  -- orthorhombic with two origins
  ("1cab", "1", ⟨c, a, b, 1⟩), ("1bca", "1", ⟨b, c, a, 1⟩), ("1ba-c", "1", ⟨b, a, c.neg, 1⟩), ("1-cba", "1", ⟨c.neg, b, a, 1⟩),
  ("1a-cb", "1", ⟨a, c.neg, b, 1⟩),
  ("2cab", "2", ⟨c, a, b, 1⟩), ("2bca", "2", ⟨b, c, a, 1⟩), ("2ba-c", "2", ⟨b, a, c.neg, 1⟩), ("2-cba", "2", ⟨c.neg, b, a, 1⟩),
  ("2a-cb", "2", ⟨a, c.neg, b, 1⟩),
  -- monoclinic: another unique axis
  ("c", "b", ⟨c, a, b, 1⟩), ("a", "b", ⟨b, c, a, 1⟩),
  -- monoclinic: unique axis and cell choice
  ("b2", "b1", ⟨ac, b, a, 1⟩), ("b3", "b1", ⟨c, b, ac, 1⟩),
  ("c1", "b1", ⟨c, a, b, 1⟩), ("c2", "b1", ⟨a, ac, b, 1⟩), ("c3", "b1", ⟨ac, c, b, 1⟩),
  ("a1", "b1", ⟨b, c, a, 1⟩), ("a2", "b1", ⟨b, a, ac, 1⟩), ("a3", "b1", ⟨b, ac, c, 1⟩),
  -- monoclinic: the other two axes exchanged, the unique axis reversed, then as before
  ("-b1", "b1", ⟨c, b.neg, a, 1⟩), ("-b2", "b1", ⟨a, b.neg, ac, 1⟩), ("-b3", "b1", ⟨ac, b.neg, c, 1⟩),
  ("-c1", "b1", ⟨a, c, b.neg, 1⟩), ("-c2", "b1", ⟨ac, a, b.neg, 1⟩), ("-c3", "b1", ⟨c, ac, b.neg, 1⟩),
  ("-a1", "b1", ⟨b.neg, a, c, 1⟩), ("-a2", "b1", ⟨b.neg, ac, a, 1⟩), ("-a3", "b1", ⟨b.neg, c, ac, 1⟩),
  -- rhombohedral axes, obverse: (2a+b+c)/3, (-a+b+c)/3, (-a-2b+c)/3
  ("R", "H", ⟨⟨2, 1, 1⟩, ⟨-1, 1, 1⟩, ⟨-1, -2, 1⟩, 3⟩)]

/-- The names of the settings the others start from. -/
def baseSettings : List String := ["", "b", "b1", "1", "2", "H"]

/-- The place of the origin of choice 1 seen from the origin of choice 2, in 24ths of the cell edges, by space-group
number. -/
def originOne : List (Nat × V3) := [
  (48, ⟨6, 6, 6⟩), (50, ⟨6, 6, 0⟩), (59, ⟨6, 6, 0⟩), (68, ⟨0, 6, 6⟩), (70, ⟨-3, -3, -3⟩),
  (85, ⟨-6, 6, 0⟩), (86, ⟨-6, -6, -6⟩), (88, ⟨0, -6, -3⟩), (125, ⟨-6, -6, 0⟩), (126, ⟨-6, -6, -6⟩),
  (129, ⟨-6, 6, 0⟩), (130, ⟨-6, 6, 0⟩), (133, ⟨-6, 6, -6⟩), (134, ⟨-6, 6, -6⟩), (137, ⟨-6, 6, -6⟩),
  (138, ⟨-6, 6, -6⟩), (141, ⟨0, 6, -3⟩), (142, ⟨0, 6, -3⟩), (201, ⟨-6, -6, -6⟩), (203, ⟨-3, -3, -3⟩),
  (222, ⟨-6, -6, -6⟩), (224, ⟨-6, -6, -6⟩), (227, ⟨-3, -3, -3⟩), (228, ⟨-9, -9, -9⟩)]

/-- A vector counted in 24ths of the cell edges as a point. -/
def in24ths (v : V3) : Pt := ⟨v.x / 24, v.y / 24, v.z / 24⟩

end Verif
