import Verif.Model.Fraction
import Verif.Model.Positions

/-!
# The complete `Display` texts

Model of `Display for SeitzMatrix`, src/hall_symbols/matrix_symbol/matrices/seitz_mat_impl.rs:355-365, and of
`Display for GeneralPositions`, src/hall_symbols/general_positions.rs:78-98, with the layout. The texts of nalgebra matrices
and of fractions come from external crates and are written down from memory of their sources.
-/

namespace Verif

/-- `Display` of a `GenericFraction<i32>` (crate `fraction`, external): sign, numerator, and the denominator unless it is 1.
Used through nalgebra at seitz_mat_impl.rs:362. -/
def ratText (q : Rat) : List Char :=
  (if q < 0 then ['-'] else []) ++ M4.natText q.num.natAbs ++ (if q.den = 1 then [] else '/' :: M4.natText q.den)

/-- The widest cell (`max_length` of nalgebra's `impl_fmt!`, external). -/
def widest (rows : List (List (List Char))) : Nat :=
  (rows.flatten.map List.length).foldl max 0

/-- One row of nalgebra's `Display` of a matrix (external): `"  │"`, each cell after a blank and padded on the left to the
width `w - 1`, `" │"`. -/
def boxRow (w : Nat) (cells : List (List Char)) : List Char :=
  [' ', ' ', '│'] ++ (cells.flatMap fun c => ' ' :: (List.replicate (w - (c.length + 1)) ' ' ++ c)) ++ [' ', '│']

/-- The lines of nalgebra's `Display` of a non-empty matrix with `ncols` columns (external); an empty line precedes and
follows them. -/
def boxLines (ncols : Nat) (rows : List (List (List Char))) : List (List Char) :=
  let w := widest rows + 1
  [[' ', ' ', '┌', ' '] ++ List.replicate (w * ncols - 1) ' ' ++ [' ', '┐']] ++ rows.map (boxRow w)
    ++ [[' ', ' ', '└', ' '] ++ List.replicate (w * ncols - 1) ' ' ++ [' ', '┘']]

/-- nalgebra's `Display` of a non-empty matrix (external), seitz_mat_impl.rs:362: an empty line, the box, an empty line. -/
def boxText (ncols : Nat) (rows : List (List (List Char))) : List Char :=
  '\n' :: ((boxLines ncols rows).flatMap fun l => l ++ ['\n']) ++ ['\n']

/-- `{:?}` of a nalgebra `Vector3<i32>` (external: the array of its columns), seitz_mat_impl.rs:361. -/
def vectorDebug (v : V3) : List Char :=
  ['[', '['] ++ OriginShift.intText v.x ++ [',', ' '] ++ OriginShift.intText v.y ++ [',', ' '] ++ OriginShift.intText v.z
    ++ [']', ']']

/-- `Display for SeitzMatrix`, seitz_mat_impl.rs:355-365: `"{} | {:?}\n{}"`. -/
def M4.displayText (m : M4) : Except Panic (List Char) := do
  let t ← m.jones
  let e ← m.eigenvector
  return t ++ [' ', '|', ' '] ++ vectorDebug e ++ ['\n'] ++ boxText 4 (m.toFraction.map fun r => r.map ratText)

/-- `Display for GeneralPositions`, general_positions.rs:78-98: for each set the heading and the displays of its matrices. -/
def GeneralPositions.displayText (g : GeneralPositions) : Except Panic (List Char) := do
  let bs ← (g.deriveFullSets.zip g.latticeTranslations).mapM fun (set, tr) => do
    let ds ← set.mapM M4.displayText
    return M4.joinWith ['\n'] [heading tr, M4.joinWith ['\n'] ds]
  return M4.joinWith ['\n'] bs

end Verif
