import Verif.Model.Rotations
import Verif.Data.Orders

/-!
# Generation of general positions

Model of src/hall_symbols/mod.rs:61-206.
-/

namespace Verif

/-- `HashMap<Matrix3<i32>, HashSet<Vector3<i32>>>`, src/hall_symbols/mod.rs:171. Simplification: an association list
(the code only looks up, inserts and never iterates). -/
abbrev RotMap := List (M3 × List V3)

/-- `map.get_mut(&rotation)`, src/hall_symbols/mod.rs:132. -/
def RotMap.get (map : RotMap) (r : M3) : Option (List V3) :=
  match map with
  | [] => none
  | (r', s) :: rest => if r = r' then some s else RotMap.get rest r

/-- Replace the set stored under `r` (the effect of inserting into the set obtained from `get_mut`,
src/hall_symbols/mod.rs:154; also `map.insert` for a new key, :138). -/
def RotMap.set (map : RotMap) (r : M3) (s : List V3) : RotMap :=
  match map with
  | [] => [(r, s)]
  | (r', s') :: rest => if r = r' then (r', s) :: rest else (r', s') :: RotMap.set rest r s

/-- `curr.iter().filter(|&&v| v <= 0).count()`, src/hall_symbols/mod.rs:114-115. -/
def countNonPos (v : V3) : Nat := (v.toList.filter (fun c => decide (c ≤ 0))).length

/-- The closure of the `fold` in `translation_minimal_repr`, src/hall_symbols/mod.rs:112-121. -/
def minStep (curr next : V3) : V3 :=
  if curr.normSq > next.normSq ∧ countNonPos curr ≥ countNonPos next then next else curr

/-- `translation_minimal_repr`, src/hall_symbols/mod.rs:103-122. -/
def LatticeSymbol.minimalRepr (l : LatticeSymbol) (t : V3) : V3 :=
  (l.translations.map fun tr => (t.add tr).map positiveMod).foldl minStep (t.map positiveMod)

/-- The state of the closure: `list` (or `list_cloned`) and `matrice_map`, src/hall_symbols/mod.rs:170-171. -/
structure GenState where
  list : List M4
  map : RotMap

/-- The closure tested for every lattice translation in the `Some` branch of `add_to_list`,
src/hall_symbols/mod.rs:144-151. -/
def freshFor (set : List V3) (t tr : V3) : Bool :=
  let u := t.add tr
  (! set.contains (u.map positiveMod)) && (u.map (fun v => Int.tmod v base)).toList.all (fun v => decide (v ≠ 0))

/-- `add_to_list`, src/hall_symbols/mod.rs:126-166: the flag says whether the matrix was pushed. -/
def LatticeSymbol.addToList (l : LatticeSymbol) (st : GenState) (m : M4) : Bool × GenState :=
  match st.map.get m.rotationPart with
  | none =>
    let t := l.minimalRepr m.translationPart
    (true, ⟨st.list ++ [m.setTranslationPart t], st.map.set m.rotationPart [t]⟩)
  | some set =>
    if l.translations.all (freshFor set m.translationPart) then
      let t := l.minimalRepr m.translationPart
      if set.contains t then (false, st)
      else (true, ⟨st.list ++ [m.setTranslationPart t], st.map.set m.rotationPart (t :: set)⟩)
    else (false, st)

/-- The inner `for j` loop with its `break`, src/hall_symbols/mod.rs:185-190. -/
def LatticeSymbol.inner (l : LatticeSymbol) (i : M4) : List M4 → GenState → GenState
  | [], st => st
  | j :: js, st =>
    match l.addToList st (i.mul j) with
    | (true, st') => st'
    | (false, st') => l.inner i js st'

/-- One pass of the `loop`, src/hall_symbols/mod.rs:183-191: `list` is read while `list_cloned` grows. -/
def LatticeSymbol.round (l : LatticeSymbol) (st : GenState) : GenState :=
  (st.list.drop 1).foldl (fun acc i => l.inner i (st.list.drop 1) acc) st

/-- The `loop`, src/hall_symbols/mod.rs:182-197; `none` means that `fuel` passes were not enough. -/
def LatticeSymbol.rounds (l : LatticeSymbol) : Nat → GenState → Option GenState
  | 0, _ => none
  | fuel + 1, st =>
    let st' := l.round st
    if st'.list.length > st.list.length then l.rounds fuel st' else some st

namespace HallSymbolNotation

/-- The `seitz_matrix()` results of all matrix symbols; `none` when one of them is invalid, which makes
`max_equiv_pos` panic (src/hall_symbols/mod.rs:65-70). -/
def seitzMatrices (n : HallSymbolNotation) : Option (List M4) :=
  n.matrixSymbols.mapM MatrixSymbol.seitzMatrix

/-- The largest number of bytes of a `Vec` (`isize::MAX` on a 64-bit target); `Vec::with_capacity` panics above it. -/
def maxBytes : Nat := 9223372036854775807

/-- `max_equiv_pos` followed by `Vec::with_capacity`, src/hall_symbols/mod.rs:65-70,170; a `SeitzMatrix` is 64 bytes.
Simplifications: a `usize` overflow of the product is treated like the capacity overflow (it panics in debug builds),
and memory itself is unlimited. -/
def maxEquivPos (n : HallSymbolNotation) (ms : List M4) : Except Panic Nat := do
  let r ← ms.foldlM (fun acc m => do let k ← m.equivNum; pure (acc * k)) n.latticeSymbol.equivNum
  if r * 64 > maxBytes then .error .capacityOverflow else .ok r

/-- `get_matrice_order`, src/hall_symbols/mod.rs:72-82; the `unwrap` panics without matrix symbols. -/
def matriceOrder (n : HallSymbolNotation) : Except Panic (List String) :=
  match n.matrixSymbols with
  | [] => .error .noMatrixSymbols
  | m :: _ =>
    match m.nfoldBody, m.nfoldDiag with
    | .N6, _ => .ok Data.order24
    | .N3, .Asterisk => .ok Data.order12
    | .N3, _ => .ok Data.order24
    | _, _ => .ok Data.order48

/-- `order_to_use.iter().position(|&s| s == text)`, src/hall_symbols/mod.rs:88-95. -/
def orderIndex (order : List String) (text : List Char) : Option Nat :=
  match order with
  | [] => none
  | s :: rest => if s.toList = text then some 0 else (orderIndex rest text).map (· + 1)

/-- The index the comparator of `sort_general_positions` computes for one matrix, src/hall_symbols/mod.rs:87-95. -/
def sortKey (order : List String) (m : M4) : Except Panic Nat := do
  let text ← m.jonesRot
  match orderIndex order text with
  | some i => pure i
  | none => .error .orderMismatch

/-- Insertion of an element that precedes (in the input) all elements of the sorted list. -/
def insertByKey (x : Nat × M4) : List (Nat × M4) → List (Nat × M4)
  | [] => [x]
  | y :: ys => if x.1 ≤ y.1 then x :: y :: ys else y :: insertByKey x ys

/-- A stable sort by key (std's `slice::sort_by` is stable; external). -/
def sortByKey : List (Nat × M4) → List (Nat × M4)
  | [] => []
  | x :: xs => insertByKey x (sortByKey xs)

/-- `sort_general_positions`, src/hall_symbols/mod.rs:84-99. With fewer than two elements the comparator is never
called; with two or more, every element is compared at least once, so one element without an index panics.
Simplification: which of several panics comes first is not modelled. -/
def sortGeneralPositions (n : HallSymbolNotation) (l : List M4) : Except Panic (List M4) := do
  let order ← n.matriceOrder
  if l.length < 2 then pure l
  else
    let keyed ← l.mapM (fun m => do let k ← sortKey order m; pure (k, m))
    pure ((sortByKey keyed).map (·.2))

/-- The state before the `loop` of `generate_positions`, src/hall_symbols/mod.rs:170-181: the matrices of the lattice
symbol, then the shifted matrices of the matrix symbols. -/
def startState (n : HallSymbolNotation) (ms : List M4) : GenState :=
  let st0 := n.latticeSymbol.seitzMatrices.foldl (fun st m => (n.latticeSymbol.addToList st m).2) ⟨[], []⟩
  ms.foldl (fun st m => (n.latticeSymbol.addToList st (n.originShift.shiftedMatrix m)).2) st0

/-- `generate_positions`, src/hall_symbols/mod.rs:168-199. `none`: still running after `fuel` passes. -/
def generatePositions (n : HallSymbolNotation) (fuel : Nat) : Option (Except Panic (List M4)) :=
  match n.seitzMatrices with
  | none => some (.error .invalidSymbol)
  | some ms =>
    match n.maxEquivPos ms with
    | .error e => some (.error e)
    | .ok _ =>
      match n.latticeSymbol.rounds fuel (n.startState ms) with
      | none => none
      | some st => some (n.sortGeneralPositions st.list)

end HallSymbolNotation

/-- `GeneralPositions`, src/hall_symbols/general_positions.rs:10-14. -/
structure GeneralPositions where
  latticeTranslations : List V3
  corePositionSet : List M4
deriving DecidableEq, Repr

/-- `general_positions`, src/hall_symbols/mod.rs:200-205. -/
def HallSymbolNotation.generalPositions (n : HallSymbolNotation) (fuel : Nat) :
    Option (Except Panic GeneralPositions) :=
  (n.generatePositions fuel).map fun r => r.map fun l => ⟨n.latticeSymbol.translations, l⟩

end Verif
