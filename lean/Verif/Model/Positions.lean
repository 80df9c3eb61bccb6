import Verif.Model.Generate

/-!
# The `GeneralPositions` type

Model of src/hall_symbols/general_positions.rs.
-/

namespace Verif

namespace GeneralPositions

/-- `derive_full_sets`, general_positions.rs:26-31. -/
def deriveFullSets (g : GeneralPositions) : List (List M4) :=
  g.latticeTranslations.map fun v => g.corePositionSet.map fun m => m.addV v

/-- `num_of_general_pos`, general_positions.rs:37-39. -/
def numOfGeneralPos (g : GeneralPositions) : Nat := g.corePositionSet.length

/-- `{}` of a `GenericFraction::new(v, 12)` of possibly negative `v` (external crate `fraction`),
general_positions.rs:47. -/
def fracTextInt (v : Int) : List Char :=
  if v < 0 then '-' :: M4.fracText v.natAbs else M4.fracText v.natAbs

/-- The heading `[a, b, c] + set`, general_positions.rs:47-48. -/
def heading (v : V3) : List Char :=
  ['['] ++ fracTextInt v.x ++ [',', ' '] ++ fracTextInt v.y ++ [',', ' '] ++ fracTextInt v.z
    ++ [']', ' ', '+', ' ', 's', 'e', 't']

/-- One numbered line, general_positions.rs:52-58 (`k` is the printed number). -/
def numberedLine (k : Nat) (m : M4) : Except Panic (List Char) := do
  let t ← m.jones
  return M4.natText k ++ [',', ' '] ++ t

/-- The lines of one set, general_positions.rs:49-60; numbers start at `start`. -/
def numberedLines (start : Nat) : List M4 → Except Panic (List (List Char))
  | [] => .ok []
  | m :: ms => do
    let l ← numberedLine start m
    let ls ← numberedLines (start + 1) ms
    return l :: ls

/-- The blocks of `text_format`, general_positions.rs:42-63: `setI` is the running set index. -/
def blocks (size : Nat) (setI : Nat) : List (List M4 × V3) → Except Panic (List (List Char))
  | [] => .ok []
  | (set, tr) :: rest => do
    let ls ← numberedLines (setI * size + 1) set
    let bs ← blocks size (setI + 1) rest
    return (M4.joinWith ['\n'] [heading tr, M4.joinWith ['\n'] ls]) :: bs

/-- `text_format`, general_positions.rs:41-65. -/
def textFormat (g : GeneralPositions) : Except Panic (List Char) := do
  let bs ← blocks g.corePositionSet.length 0 (g.deriveFullSets.zip g.latticeTranslations)
  return M4.joinWith ['\n'] bs

/-- `pure_txt`, general_positions.rs:66-75. -/
def pureTxt (g : GeneralPositions) : Except Panic (List (List Char)) :=
  g.deriveFullSets.flatten.mapM M4.jones

/-- Derived `PartialEq` of `Vec<SeitzMatrix>` (std): same length and equal entries, with `==` of `SeitzMatrix`. -/
def coreEqv : List M4 → List M4 → Bool
  | [], [] => true
  | a :: as, b :: bs => M4.eqv a b && coreEqv as bs
  | _, _ => false

/-- Derived `PartialEq` of `GeneralPositions`, general_positions.rs:10: field by field. -/
def eqv (g h : GeneralPositions) : Bool :=
  decide (g.latticeTranslations = h.latticeTranslations) && coreEqv g.corePositionSet h.corePositionSet

end GeneralPositions

/-- The parts of `Display for SeitzMatrix` (seitz_mat_impl.rs:355-365) that can panic: the text and the eigenvector.
Simplification: the matrix of fractions and the layout (they cannot panic) are in `Model/Display`. -/
def M4.display (m : M4) : Except Panic (List Char × V3) := do
  let t ← m.jones
  let e ← m.eigenvector
  return (t, e)

/-- The per-set parts of `Display for GeneralPositions`, general_positions.rs:78-98 (heading, then each
matrix displayed). Simplification: the layout is in `Model/Display`. -/
def GeneralPositions.display (g : GeneralPositions) : Except Panic (List (List Char × List (List Char × V3))) :=
  (g.deriveFullSets.zip g.latticeTranslations).mapM fun (set, tr) => do
    let ds ← set.mapM M4.display
    return (heading tr, ds)

end Verif
