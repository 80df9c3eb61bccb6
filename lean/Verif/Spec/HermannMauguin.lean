import Mathlib.Logic.Function.Iterate
import Verif.Spec.CrystalClass

/-!
# Specification: what a Hermann-Mauguin name says

Written from the International Tables for Crystallography, Vol. A (symmetry directions, Table 2.1.3.1; printed symbols of
axes and planes, Tables 2.1.2.1-2.1.2.3), not from the code: the code only stores the names. A name is a lattice letter
followed by one symbol for each symmetry direction; `:1`, `:2`, `:H`, `:R` after it tell origin or axes.
-/

namespace Verif.HM

/-- One symbol: `n` or `n_s` (an axis, as `2`, `41`), `-n`, or a plane (`m`, `a`, `b`, `c`, `n`, `d`). -/
inductive Part
  | axis (n s : Nat)
  | bar (n : Nat)
  | plane (g : Char)
deriving DecidableEq

/-- The cells the names refer to; `monoclinic u` has its unique axis along `u`. -/
inductive System
  | triclinic
  | monoclinic (u : Fin 3)
  | orthorhombic
  | tetragonal
  | hexagonal
  | rhombohedral
  | cubic
deriving DecidableEq

/-- A name that has been read: lattice letter, cell, and the symbols with their directions. -/
structure Name where
  lattice : Char
  system : System
  parts : List (V3 × Part)
deriving DecidableEq

/-! ## Reading -/

/-- The words of a text, separated by blanks. -/
def words : List Char → List (List Char)
  | [] => []
  | c :: cs =>
    if c = ' ' then words cs
    else match cs, words cs with
      | [], _ => [[c]]
      | d :: _, w :: ws => if d = ' ' then [c] :: w :: ws else (c :: w) :: ws
      | _ :: _, [] => [[c]]

/-- A symbol without `/`. `1` stands for no symmetry. -/
def readSimple : List Char → Option (List Part)
  | ['1'] => some []
  | ['-', '1'] => some [.bar 1]
  | ['-', '3'] => some [.bar 3]
  | ['-', '4'] => some [.bar 4]
  | ['-', '6'] => some [.bar 6]
  | ['2'] => some [.axis 2 0]
  | ['3'] => some [.axis 3 0]
  | ['4'] => some [.axis 4 0]
  | ['6'] => some [.axis 6 0]
  | ['2', '1'] => some [.axis 2 1]
  | ['3', '1'] => some [.axis 3 1]
  | ['3', '2'] => some [.axis 3 2]
  | ['4', '1'] => some [.axis 4 1]
  | ['4', '2'] => some [.axis 4 2]
  | ['4', '3'] => some [.axis 4 3]
  | ['6', '1'] => some [.axis 6 1]
  | ['6', '2'] => some [.axis 6 2]
  | ['6', '3'] => some [.axis 6 3]
  | ['6', '4'] => some [.axis 6 4]
  | ['6', '5'] => some [.axis 6 5]
  | ['m'] => some [.plane 'm']
  | ['a'] => some [.plane 'a']
  | ['b'] => some [.plane 'b']
  | ['c'] => some [.plane 'c']
  | ['n'] => some [.plane 'n']
  | ['d'] => some [.plane 'd']
  | _ => none

/-- The symbol of one direction: `X`, or `X/Y` for an axis and a plane normal to it. -/
def readPart (w : List Char) : Option (List Part) :=
  match w.span (· ≠ '/') with
  | (a, []) => readSimple a
  | (a, _ :: b) =>
    match readSimple a, readSimple b with
    | some x, some y => some (x ++ y)
    | _, _ => none

/-- `100`, `010`, `001`, `1-10`, `111`. -/
def x : V3 := ⟨1, 0, 0⟩
@[inherit_doc x] def y : V3 := ⟨0, 1, 0⟩
@[inherit_doc x] def z : V3 := ⟨0, 0, 1⟩
@[inherit_doc x] def xy : V3 := ⟨1, -1, 0⟩
@[inherit_doc x] def xyz : V3 := ⟨1, 1, 1⟩

/-- The order of the axis the first symbol names. -/
def leading : List (List Char) → Char
  | ('-' :: c :: _) :: _ => c
  | (c :: _) :: _ => c
  | _ => ' '

/-- The cell and the symmetry directions that belong to the symbols (one member of each family of equivalent directions;
`rh`: rhombohedral axes). -/
def directions (rh : Bool) (ws : List (List Char)) : Option (System × List V3) :=
  if ws = [['1']] ∨ ws = [['-', '1']] then some (.triclinic, [z])
  else if ws[1]? = some ['3'] ∨ ws[1]? = some ['-', '3'] then some (.cubic, [z, xyz, xy])
  else if leading ws = '4' then some (.tetragonal, [z, x, xy])
  else if leading ws = '6' then some (.hexagonal, [z, x, xy])
  else if leading ws = '3' then if rh then some (.rhombohedral, [xyz, xy]) else some (.hexagonal, [z, x, xy])
  else if ws.length ≠ 3 then none
  else if ws[1]? = some ['1'] ∧ ws[2]? = some ['1'] then some (.monoclinic 0, [x, y, z])
  else if ws[0]? = some ['1'] ∧ ws[2]? = some ['1'] then some (.monoclinic 1, [x, y, z])
  else if ws[0]? = some ['1'] ∧ ws[1]? = some ['1'] then some (.monoclinic 2, [x, y, z])
  else some (.orthorhombic, [x, y, z])

/-- The symbols with their directions; nothing if there are more symbols than directions. -/
def readParts : List V3 → List (List Char) → Option (List (V3 × Part))
  | _, [] => some []
  | [], _ :: _ => none
  | d :: ds, w :: ws =>
    match readPart w, readParts ds ws with
    | some ps, some rest => some (ps.map (fun p => (d, p)) ++ rest)
    | _, _ => none

/-- Reads a name. -/
def readName (name : List Char) : Option Name :=
  let (front, suffix) := name.span (· ≠ ':')
  match words front with
  | [c] :: ws =>
    match directions (suffix.take 2 = [':', 'R']) ws with
    | some (sys, ds) =>
      match readParts ds ws with
      | some ps => some ⟨c, sys, ps⟩
      | none => none
    | none => none
  | _ => none

/-! ## Meaning -/

/-- The centring translations of a lattice letter in twelfths of the cell edges. (A rhombohedral lattice on its own axes
is primitive.) -/
def centrings (sys : System) (letter : Char) : List V3 :=
  if letter = 'P' then [⟨0, 0, 0⟩]
  else if letter = 'A' then [⟨0, 0, 0⟩, ⟨0, 6, 6⟩]
  else if letter = 'B' then [⟨0, 0, 0⟩, ⟨6, 0, 6⟩]
  else if letter = 'C' then [⟨0, 0, 0⟩, ⟨6, 6, 0⟩]
  else if letter = 'I' then [⟨0, 0, 0⟩, ⟨6, 6, 6⟩]
  else if letter = 'F' then [⟨0, 0, 0⟩, ⟨0, 6, 6⟩, ⟨6, 0, 6⟩, ⟨6, 6, 0⟩]
  else if letter = 'R' then if sys = .rhombohedral then [⟨0, 0, 0⟩] else [⟨0, 0, 0⟩, ⟨8, 4, 4⟩, ⟨4, 8, 8⟩]
  else []

/-- Gram matrices whose combinations are the metrics of the cell. -/
def System.metrics : System → List M3
  | .triclinic => [⟨1, 0, 0, 0, 0, 0, 0, 0, 0⟩, ⟨0, 0, 0, 0, 1, 0, 0, 0, 0⟩, ⟨0, 0, 0, 0, 0, 0, 0, 0, 1⟩,
      ⟨0, 1, 0, 1, 0, 0, 0, 0, 0⟩, ⟨0, 0, 1, 0, 0, 0, 1, 0, 0⟩, ⟨0, 0, 0, 0, 0, 1, 0, 1, 0⟩]
  | .monoclinic u => [⟨1, 0, 0, 0, 0, 0, 0, 0, 0⟩, ⟨0, 0, 0, 0, 1, 0, 0, 0, 0⟩, ⟨0, 0, 0, 0, 0, 0, 0, 0, 1⟩,
      match u with
      | 0 => ⟨0, 0, 0, 0, 0, 1, 0, 1, 0⟩
      | 1 => ⟨0, 0, 1, 0, 0, 0, 1, 0, 0⟩
      | 2 => ⟨0, 1, 0, 1, 0, 0, 0, 0, 0⟩]
  | .orthorhombic => [⟨1, 0, 0, 0, 0, 0, 0, 0, 0⟩, ⟨0, 0, 0, 0, 1, 0, 0, 0, 0⟩, ⟨0, 0, 0, 0, 0, 0, 0, 0, 1⟩]
  | .tetragonal => [⟨1, 0, 0, 0, 1, 0, 0, 0, 0⟩, ⟨0, 0, 0, 0, 0, 0, 0, 0, 1⟩]
  | .hexagonal => [⟨2, -1, 0, -1, 2, 0, 0, 0, 0⟩, ⟨0, 0, 0, 0, 0, 0, 0, 0, 1⟩]
  | .rhombohedral => [⟨1, 0, 0, 0, 1, 0, 0, 0, 1⟩, ⟨1, 1, 1, 1, 1, 1, 1, 1, 1⟩]
  | .cubic => [⟨1, 0, 0, 0, 1, 0, 0, 0, 1⟩]

/-- `r` is a symmetry of every cell of the system. -/
def System.Keeps (sys : System) (r : M3) : Prop := ∀ g ∈ sys.metrics, (r.transpose.mul g).mul r = g

/-- The volume of the parallelepiped with the three edges (right-handed: positive). -/
def triple (a b c : V3) : Int :=
  a.x * (b.y * c.z - b.z * c.y) - a.y * (b.x * c.z - b.z * c.x) + a.z * (b.x * c.y - b.y * c.x)

/-- `r` turns by `360°/n` about `d`, in the right-handed sense. (For `n > 2` the sense is that of `d`, an edge of the cell,
and its image.) -/
def Turn (d : V3) (n : Nat) (r : M3) : Prop :=
  r.det = 1 ∧ r.HasOrder n ∧ r.mulVec d = d ∧ (2 < n → ∃ e ∈ [x, y, z], 0 < triple d e (r.mulVec e))

/-- Twice the glide of a plane with normal `d`, in twelfths: `a`, `b`, `c` glide by half an edge, `n` by half a diagonal
of the cell's section, `d` by a quarter of one. On rhombohedral axes `c` is the hexagonal edge `a+b+c`. -/
def glides (sys : System) (d : V3) (g : Char) : List V3 :=
  let diagonals (h : Int) : List V3 :=
    if d = x then [⟨0, h, h⟩, ⟨0, h, -h⟩, ⟨0, -h, h⟩, ⟨0, -h, -h⟩]
    else if d = y then [⟨h, 0, h⟩, ⟨h, 0, -h⟩, ⟨-h, 0, h⟩, ⟨-h, 0, -h⟩]
    else if d = z then [⟨h, h, 0⟩, ⟨h, -h, 0⟩, ⟨-h, h, 0⟩, ⟨-h, -h, 0⟩]
    else if d = xy then [⟨h, h, h⟩, ⟨h, h, -h⟩, ⟨-h, -h, h⟩, ⟨-h, -h, -h⟩]
    else []
  if g = 'm' then [⟨0, 0, 0⟩]
  else if g = 'a' then [⟨12, 0, 0⟩, ⟨-12, 0, 0⟩]
  else if g = 'b' then [⟨0, 12, 0⟩, ⟨0, -12, 0⟩]
  else if g = 'c' then if sys = .rhombohedral then [⟨12, 12, 12⟩, ⟨-12, -12, -12⟩] else [⟨0, 0, 12⟩, ⟨0, 0, -12⟩]
  else if g = 'n' then diagonals 12
  else if g = 'd' then diagonals 6
  else []

/-- `r` is the linear part of an operation the symbol names for the direction `d`. -/
def Part.Linear (d : V3) (r : M3) : Part → Prop
  | .axis n _ => Turn d n r
  | .bar n => Turn d n r.neg
  | .plane _ => Turn d 2 r.neg

/-- The screw or glide part is the named one: `n` applications of `n_s` move by `s` edges along the axis, two
applications of a glide move by twice the glide. -/
def Part.Shifts (sys : System) (d : V3) (m : M4) : Part → Prop
  | .axis n s => ∀ p, m.act^[n] p = p.addTwelfths ⟨12 * s * d.x, 12 * s * d.y, 12 * s * d.z⟩
  | .bar _ => True
  | .plane g => ∃ v ∈ glides sys d g, ∀ p, m.act (m.act p) = p.addTwelfths v

/-- The group has an operation the symbol names. -/
def Present (n : HallSymbolNotation) (sys : System) (d : V3) (p : Part) : Prop :=
  ∃ m : M4, SpaceGroup n m.act ∧ p.Linear d m.rot ∧ p.Shifts sys d m

/-- Products of members of `S`. -/
inductive Generated (S : Set M3) : M3 → Prop
  | one : Generated S M3.one
  | mul {a r : M3} : Generated S a → r ∈ S → Generated S (a.mul r)

/-- The rotations of the group that are named. -/
def Named (nm : Name) (n : HallSymbolNotation) : Set M3 := {r ∈ PointGroup n | ∃ e ∈ nm.parts, e.2.Linear e.1 r}

/-- The name that has been read is a name of the group: its translations are those of the lattice letter, its rotations
are symmetries of the cell, it has an operation for every symbol, and its rotations are products of the named ones. -/
structure Fits (nm : Name) (n : HallSymbolNotation) : Prop where
  lattice : ∀ f, IsTranslation f →
    (SpaceGroup n f ↔ ∃ v ∈ centrings nm.system nm.lattice, ∃ k : V3, ∀ p, f p = (p.addTwelfths v).addCell k)
  cell : ∀ r ∈ PointGroup n, nm.system.Keeps r
  present : ∀ e ∈ nm.parts, Present n nm.system e.1 e.2
  generated : ∀ r ∈ PointGroup n, Generated (Named nm n) r

/-- `name` is a Hermann-Mauguin name of the group of the Hall symbol. -/
def Names (name : String) (n : HallSymbolNotation) : Prop := ∃ nm, readName name.toList = some nm ∧ Fits nm n

end Verif.HM
