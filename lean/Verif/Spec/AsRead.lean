import Verif.Spec.HallGroup

/-!
# Specification: what this library takes a written Hall symbol to mean

The published rules with the deviations of this library, for every text of the grammar: which axis each symbol gets, which
symbols it refuses, and which group results. As in `Spec/HallGroup`, nothing here refers to the parser, to the matrices of the
code or to position generation. -/

namespace Verif

/-- The axis this library gives to the symbol in a given place (0, 1, 2, ...); `prev` is the order of the symbol before it.
In second place a 2 after 2 or 4 is always about a, and after 3 or 6 always about a face diagonal; a 3 in third place is
always about a+b+c; an unmarked symbol in any other case is about c; face diagonals are known in the first place and in
those two cases only. -/
def readDirection (place : Nat) (prev : Option NFold) (w : Written) : Option V3 :=
  if place = 0 then
    match w.axis with
    | none => some ⟨0, 0, 1⟩
    | some .x => some ⟨1, 0, 0⟩
    | some .y => some ⟨0, 1, 0⟩
    | some .z => some ⟨0, 0, 1⟩
    | some .quote => some ⟨1, -1, 0⟩
    | some .dquote => some ⟨1, 1, 0⟩
    | some .star => some ⟨1, 1, 1⟩
  else if place = 1 ∧ w.fold = .N2 ∧ (prev = some .N2 ∨ prev = some .N4) then
    match w.axis with
    | some .quote => some ⟨0, 1, -1⟩
    | some .dquote => some ⟨0, 1, 1⟩
    | some .star => some ⟨1, 1, 1⟩
    | _ => some ⟨1, 0, 0⟩
  else if place = 1 ∧ w.fold = .N2 ∧ (prev = some .N3 ∨ prev = some .N6) then
    match w.axis with
    | some .dquote => some ⟨1, 1, 0⟩
    | some .star => some ⟨1, 1, 1⟩
    | _ => some ⟨1, -1, 0⟩
  else if place = 2 ∧ w.fold = .N3 then some ⟨1, 1, 1⟩
  else
    match w.axis with
    | none => some ⟨0, 0, 1⟩
    | some .x => some ⟨1, 0, 0⟩
    | some .y => some ⟨0, 1, 0⟩
    | some .z => some ⟨0, 0, 1⟩
    | some .star => some ⟨1, 1, 1⟩
    | some .quote => none
    | some .dquote => none

/-- The direction the subscript of a symbol of order 3, 4 or 6 moves along: the cell edge written, c when none is written or in
the first place (even when the rotation is about a body diagonal). -/
def readScrewAxis (place : Nat) (w : Written) : Option V3 :=
  match w.axis with
  | none => some ⟨0, 0, 1⟩
  | some .x => some ⟨1, 0, 0⟩
  | some .y => some ⟨0, 1, 0⟩
  | some .z => some ⟨0, 0, 1⟩
  | _ => if place = 0 then some ⟨0, 0, 1⟩ else none

/-- A written symbol as understood: its rotation axis and the direction of its subscript. -/
structure Understood where
  symbol : Written
  axis : Option V3
  along : Option V3
deriving DecidableEq

/-- The symbols of a list as this library understands them. -/
def asRead (place : Nat) (prev : Option NFold) : List Written → List Understood
  | [] => []
  | w :: ws => ⟨w, readDirection place prev w, readScrewAxis place w⟩ :: asRead (place + 1) (some w.fold) ws

/-- The symbol is not refused: there is a rotation of its order about its axis, and its subscript is one of `31 32 41 43 61
62 64 65` with a direction to move along (subscripts on 1 and 2 are not looked at). -/
def Understood.Accepted (u : Understood) : Prop :=
  (∃ R, HallRotation u.symbol.fold u.axis R) ∧
    (u.symbol.fold.number ≤ 2 ∨ u.symbol.sub = .None ∨ (u.along ≠ none ∧
      (u.symbol.fold.number, u.symbol.sub.number) ∈ [(3, 1), (3, 2), (4, 1), (4, 3), (6, 1), (6, 2), (6, 4), (6, 5)]))

/-- `f` is the operation of an accepted symbol: the rotation, negated after a minus sign, then `T/N` along the direction of
the subscript (orders 3, 4, 6 only) and the translations of the letters. -/
def Understood.Operation (u : Understood) (f : Pt → Pt) : Prop :=
  u.Accepted ∧ ∃ R, HallRotation u.symbol.fold u.axis R ∧
    let s : ℚ := if u.symbol.minus then -1 else 1
    let a : V3 := u.along.getD ⟨0, 0, 0⟩
    let t : ℚ := if u.symbol.fold.number ≤ 2 then 0 else u.symbol.sub.number / u.symbol.fold.number
    ∀ p, f p = ⟨s * (R.m11 * p.x + R.m12 * p.y + R.m13 * p.z) + t * a.x + (totalShift u.symbol.letters).x,
      s * (R.m21 * p.x + R.m22 * p.y + R.m23 * p.z) + t * a.y + (totalShift u.symbol.letters).y,
      s * (R.m31 * p.x + R.m32 * p.y + R.m33 * p.z) + t * a.z + (totalShift u.symbol.letters).z⟩

/-- The group this library takes `(-)L N N N (v)` to denote: generated by the translations of the cell and of the centring,
the inversion in the origin (after a leading minus sign; it is not moved) and the operations of the symbols moved by `v/12`. -/
inductive ReadGroup (minus : Bool) (l : Lattices) (ws : List Written) (v : V3) : (Pt → Pt) → Prop
  | one : ReadGroup minus l ws v id
  | cell (k : V3) : ReadGroup minus l ws v (fun p => p.addCell k)
  | centring {q : Pt} : q ∈ centringVectors l → ReadGroup minus l ws v (fun p => ⟨p.x + q.x, p.y + q.y, p.z + q.z⟩)
  | inversion : minus = true → ReadGroup minus l ws v (fun p => ⟨-p.x, -p.y, -p.z⟩)
  | symbol {u : Understood} {f : Pt → Pt} : u ∈ asRead 0 none ws → u.Operation f →
      ReadGroup minus l ws v (fun p => (f (p.subTwelfths v)).addTwelfths v)
  | comp {f g : Pt → Pt} : ReadGroup minus l ws v f → ReadGroup minus l ws v g → ReadGroup minus l ws v (f ∘ g)
  | inv {f g : Pt → Pt} : ReadGroup minus l ws v f → f ∘ g = id → g ∘ f = id → ReadGroup minus l ws v g

end Verif
