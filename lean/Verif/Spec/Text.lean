import Verif.Spec.Affine

/-!
# Specification: reading coordinate triplets

A reader of texts such as `-x+y,x,z+1/3`, written without reference to how the crate prints them: an expression is a
sequence of terms, each an optional sign followed by one of the letters `x y z` or a number `n` or `n/d`.
-/

namespace Verif.Spec

/-- Value of one character as a decimal digit. -/
def digit (c : Char) : Option Nat :=
  if '0' ≤ c ∧ c ≤ '9' then some (c.toNat - 48) else none

/-- Read the longest run of digits, given the value read so far: the number and the unread text. -/
def readNumber (acc : Nat) : List Char → Nat × List Char
  | [] => (acc, [])
  | c :: cs =>
    match digit c with
    | some d => readNumber (10 * acc + d) cs
    | none => (acc, c :: cs)

/-- Coefficients of `x`, `y`, `z` and a constant. -/
structure Linear where
  x : ℚ
  y : ℚ
  z : ℚ
  const : ℚ
deriving DecidableEq

/-- Sum of two expressions. -/
def Linear.add (a b : Linear) : Linear := ⟨a.x + b.x, a.y + b.y, a.z + b.z, a.const + b.const⟩

/-- One term after its sign `s`. -/
def readBody (s : ℚ) : List Char → Option (Linear × List Char)
  | 'x' :: r => some (⟨s, 0, 0, 0⟩, r)
  | 'y' :: r => some (⟨0, s, 0, 0⟩, r)
  | 'z' :: r => some (⟨0, 0, s, 0⟩, r)
  | c :: r =>
    match digit c with
    | none => none
    | some d =>
      let (num, r1) := readNumber d r
      match r1 with
      | '/' :: c' :: r2 =>
        match digit c' with
        | none => none
        | some d' => let (den, r3) := readNumber d' r2; some (⟨0, 0, 0, s * num / den⟩, r3)
      | _ => some (⟨0, 0, 0, s * num⟩, r1)
  | [] => none

/-- One signed term. -/
def readTerm : List Char → Option (Linear × List Char)
  | '+' :: r => readBody 1 r
  | '-' :: r => readBody (-1) r
  | r => readBody 1 r

/-- A whole expression (`fuel` bounds the number of terms); the empty text is zero. -/
def readTerms : Nat → List Char → Option Linear
  | _, [] => some ⟨0, 0, 0, 0⟩
  | 0, _ :: _ => none
  | fuel + 1, s =>
    match readTerm s with
    | none => none
    | some (t, r) =>
      match readTerms fuel r with
      | none => none
      | some u => some (t.add u)

/-- An expression. -/
def readExpr (s : List Char) : Option Linear := readTerms s.length s

/-- Split at commas. -/
def splitCommas : List Char → List (List Char)
  | [] => [[]]
  | c :: cs =>
    if c = ',' then [] :: splitCommas cs
    else
      match splitCommas cs with
      | [] => [[c]]
      | h :: t => (c :: h) :: t

/-- Three expressions separated by commas. -/
def readTriplet (s : List Char) : Option (Linear × Linear × Linear) :=
  match splitCommas s with
  | [a, b, c] =>
    match readExpr a, readExpr b, readExpr c with
    | some x, some y, some z => some (x, y, z)
    | _, _, _ => none
  | _ => none

/-- Value of an expression at a point. -/
def Linear.eval (e : Linear) (p : Pt) : ℚ := e.x * p.x + e.y * p.y + e.z * p.z + e.const

/-- The map of space a triplet text describes. -/
def readMap (s : List Char) : Option (Pt → Pt) :=
  (readTriplet s).map fun (a, b, c) => fun p => ⟨a.eval p, b.eval p, c.eval p⟩

end Verif.Spec
