import Verif.Model.Notation

/-!
# Specification: the written form of Hall symbols

The grammar of the notation, given by how a symbol is written, not by how it is read.
-/

namespace Verif

/-- A blank: a space or a tab. -/
def Blank (c : Char) : Prop := c = ' ' ∨ c = '\t'

/-- The six marks that can follow the order: a principal axis or a diagonal. -/
inductive AxisMark where
  | x | y | z | quote | dquote | star
deriving DecidableEq

/-- One matrix symbol as written: minus sign, order, optional axis mark, optional subscript, translation letters. -/
structure Written where
  minus : Bool
  fold : NFold
  axis : Option AxisMark
  sub : NFoldSub
  letters : List TranslationSymbol
deriving DecidableEq

/-- The order is one of 1 2 3 4 6 and the letters are among `a b c n u v w d`. -/
def Written.Valid (w : Written) : Prop := w.fold ≠ .Invalid ∧ TranslationSymbol.Invalid ∉ w.letters

/-- The digit of an order. -/
def foldChar : NFold → Char
  | .N1 => '1'
  | .N2 => '2'
  | .N3 => '3'
  | .N4 => '4'
  | .N6 => '6'
  | .Invalid => '?'

/-- The character of an axis mark. -/
def AxisMark.char : AxisMark → Char
  | .x => 'x'
  | .y => 'y'
  | .z => 'z'
  | .quote => '\''
  | .dquote => '"'
  | .star => '*'

/-- The digit of a subscript (nothing when absent). -/
def subText : NFoldSub → List Char
  | .None => []
  | .N1 => ['1']
  | .N2 => ['2']
  | .N3 => ['3']
  | .N4 => ['4']
  | .N5 => ['5']

/-- The letter of a translation. -/
def letterChar : TranslationSymbol → Char
  | .A => 'a'
  | .B => 'b'
  | .C => 'c'
  | .N => 'n'
  | .U => 'u'
  | .V => 'v'
  | .W => 'w'
  | .D => 'd'
  | .Invalid => '?'

/-- The text of one matrix symbol. -/
def Written.text (w : Written) : List Char :=
  (if w.minus then ['-'] else []) ++ [foldChar w.fold] ++ (match w.axis with | some a => [a.char] | none => [])
    ++ subText w.sub ++ w.letters.map letterChar

/-- The letter of a lattice. -/
def latticeChar : Lattices → Char
  | .P => 'P'
  | .A => 'A'
  | .B => 'B'
  | .C => 'C'
  | .I => 'I'
  | .R => 'R'
  | .F => 'F'

/-- The text of a lattice symbol. -/
def latticeText (minus : Bool) (l : Lattices) : List Char := (if minus then ['-'] else []) ++ [latticeChar l]

/-- Matrix symbols, each preceded by its blanks. -/
def symbolsText (ws : List (List Char × Written)) : List Char := ws.flatMap fun bw => bw.1 ++ bw.2.text

/-- All symbols are valid, the separators are blanks, and only the first one may be empty. -/
def ProperlySpaced : List (List Char × Written) → Prop
  | [] => True
  | (b, w) :: rest => (∀ c ∈ b, Blank c) ∧ w.Valid ∧
      ∀ bw ∈ rest, (∀ c ∈ bw.1, Blank c) ∧ bw.1 ≠ [] ∧ bw.2.Valid

/-- A decimal digit. -/
def DecimalDigit (c : Char) : Prop := c ∈ ['0', '1', '2', '3', '4', '5', '6', '7', '8', '9']

/-- The number a run of digits stands for. -/
def decimalValue (ds : List Char) : Nat := ds.foldl (fun acc c => 10 * acc + (c.toNat - 48)) 0

/-- `t` is a decimal integer of value `v`: `0`, or an optional sign and digits not starting with `0`. -/
inductive IntText : List Char → Int → Prop
  | zero : IntText ['0'] 0
  | plain {d : Char} {ds : List Char} : DecimalDigit d → d ≠ '0' → (∀ c ∈ ds, DecimalDigit c) →
      IntText (d :: ds) (decimalValue (d :: ds))
  | plus {d : Char} {ds : List Char} : DecimalDigit d → d ≠ '0' → (∀ c ∈ ds, DecimalDigit c) →
      IntText ('+' :: d :: ds) (decimalValue (d :: ds))
  | minus {d : Char} {ds : List Char} : DecimalDigit d → d ≠ '0' → (∀ c ∈ ds, DecimalDigit c) →
      IntText ('-' :: d :: ds) (-(decimalValue (d :: ds) : Int))

/-- The range of a 32-bit integer. -/
def FitsI32 (v : Int) : Prop := -2147483648 ≤ v ∧ v ≤ 2147483647

/-- `t` writes the integers `vs`, separated by blanks. -/
inductive IntsText : List Char → List Int → Prop
  | one {t : List Char} {v : Int} : IntText t v → FitsI32 v → IntsText t [v]
  | more {t b t' : List Char} {v : Int} {vs : List Int} : IntText t v → FitsI32 v → b ≠ [] → (∀ c ∈ b, Blank c) →
      IntsText t' vs → IntsText (t ++ b ++ t') (v :: vs)

/-- `s` begins (after blanks) with a parenthesised list of the integers `vs`, `rest` follows it. -/
def ShiftText (s : List Char) (vs : List Int) (rest : List Char) : Prop :=
  ∃ b t, (∀ c ∈ b, Blank c) ∧ IntsText t vs ∧ s = b ++ '(' :: t ++ ')' :: rest

end Verif
