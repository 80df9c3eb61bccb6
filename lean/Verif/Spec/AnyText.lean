import Verif.Spec.Syntax

/-!
# Specification: what an arbitrary text is read as (C78)

`Spec/Syntax` says how a notation ought to be written. This file says what every text, well written or not, stands for:
which characters are skipped, which are taken together, and where reading stops. It does not mention the parser.
-/

namespace Verif

/-- The next character, if there is one, is none of `cs`. -/
def NotNext (cs : List Char) (r : List Char) : Prop := ∀ c, r.head? = some c → c ∉ cs

/-- The six marks. -/
def markChars : List Char := ['x', 'y', 'z', '\'', '"', '*']

/-- The characters that may follow a backslash. -/
def escapable : List Char := ['"', '\\', '\'']

/-- The digits of a subscript. -/
def subChars : List Char := ['1', '2', '3', '4', '5']

/-- The letters of translations. -/
def translationChars : List Char := ['a', 'b', 'c', 'n', 'u', 'v', 'w', 'd']

/-- A run of marks and of backslash-escaped characters. -/
inductive MarkRun : List Char → Prop
  | nil : MarkRun []
  | mark {c : Char} {t : List Char} : c ∈ markChars → MarkRun t → MarkRun (c :: t)
  | escaped {c : Char} {t : List Char} : c ∈ escapable → MarkRun t → MarkRun ('\\' :: c :: t)

/-- What a run of marks says about axis and diagonal: a single mark is that axis or diagonal, everything else says
nothing, which means the axis `z`. -/
inductive RunMeans : List Char → RotationAxis → NFoldDiag → Prop
  | x : RunMeans ['x'] .X .None
  | y : RunMeans ['y'] .Y .None
  | z : RunMeans ['z'] .Z .None
  | quote : RunMeans ['\''] .Omitted .SingleQuote
  | dquote : RunMeans ['"'] .Omitted .DoubleQuote
  | star : RunMeans ['*'] .Omitted .Asterisk
  | other {run : List Char} : (∀ c ∈ markChars, run ≠ [c]) → RunMeans run .Z .None

/-- `s` begins with the matrix symbol `m` and `r` follows it: blanks, sign and order, the longest run of marks (a
backslash that escapes nothing ends the run, is skipped, and makes the run say nothing), one subscript digit, and as many
letters as there are. -/
def SymbolAt (s : List Char) (m : MatrixSymbol) (r : List Char) : Prop :=
  ∃ b run letters t : List Char, ∃ ls : List TranslationSymbol,
    (∀ c ∈ b, Blank c) ∧ m.nfoldBody ≠ .Invalid ∧ MarkRun run ∧
    ((NotNext ('\\' :: markChars) t ∧ RunMeans run m.rotationAxis m.nfoldDiag ∧
        s = b ++ ((if m.minusSign then ['-'] else []) ++ foldChar m.nfoldBody :: (run ++ t))) ∨
     (NotNext escapable t ∧ m.rotationAxis = .Z ∧ m.nfoldDiag = .None ∧
        s = b ++ ((if m.minusSign then ['-'] else []) ++ foldChar m.nfoldBody :: (run ++ '\\' :: t)))) ∧
    t = subText m.nfoldSub ++ letters ++ r ∧
    letters = ls.map letterChar ∧ TranslationSymbol.Invalid ∉ ls ∧
    m.translationSymbols = (if ls = [] then none else some ls) ∧
    NotNext translationChars r ∧ (m.nfoldSub = .None → ls = [] → NotNext subChars r)

/-- `s` begins with no matrix symbol, and `r` is `s` without its leading blanks. -/
def NoSymbolAt (s r : List Char) : Prop :=
  ∃ b : List Char, (∀ c ∈ b, Blank c) ∧ s = b ++ r ∧ NotNext [' ', '\t'] r ∧
    ∀ (minus : Bool) (f : NFold) (t : List Char), f ≠ .Invalid → r ≠ (if minus then ['-'] else []) ++ foldChar f :: t

/-- `s` begins with the matrix symbols `ms` and no further one; `r` is what follows. -/
inductive SymbolsAt : List Char → List MatrixSymbol → List Char → Prop
  | stop {s r : List Char} : NoSymbolAt s r → SymbolsAt s [] r
  | next {s r rest : List Char} {m : MatrixSymbol} {ms : List MatrixSymbol} : SymbolAt s m r → SymbolsAt r ms rest →
      SymbolsAt s (m :: ms) rest

/-- The default-axis rules, for the symbol in place `i` (counted from 0) after a first symbol of order `first`: `m` is the
symbol as it stands in the text, `m'` the one in the notation. -/
structure Defaulted (i : Nat) (first : NFold) (m m' : MatrixSymbol) : Prop where
  same : m'.minusSign = m.minusSign ∧ m'.nfoldBody = m.nfoldBody ∧ m'.nfoldSub = m.nfoldSub ∧
    m'.translationSymbols = m.translationSymbols
  axis : m'.rotationAxis =
    if i = 0 ∧ m.rotationAxis = .Omitted then .Z
    else if i = 1 ∧ m.nfoldBody = .N2 ∧ (first = .N2 ∨ first = .N4) then .X
    else if i = 1 ∧ m.nfoldBody = .N2 ∧ (first = .N3 ∨ first = .N6) then .Z
    else m.rotationAxis
  diag : m'.nfoldDiag =
    if i = 1 ∧ m.nfoldBody = .N2 ∧ (first = .N3 ∨ first = .N6) ∧ m.nfoldDiag = .None then .SingleQuote
    else if i = 2 ∧ m.nfoldBody = .N3 then .Asterisk
    else m.nfoldDiag

/-- `rest`, the text after the matrix symbols, gives the shift `o`: three integers in parentheses, or no list of one to
three integers at all. -/
def ShiftAt (rest : List Char) (o : OriginShift) : Prop :=
  (∃ a b c junk, ShiftText rest [a, b, c] junk ∧ o = OriginShift.new a b c) ∨
  ((∀ vs junk, ShiftText rest vs junk → 3 < vs.length) ∧ o = ⟨0, 0, 0⟩)

/-- The text `s` stands for the notation `n`. -/
def StandsFor (s : List Char) (n : HallSymbolNotation) : Prop :=
  ∃ (r rest : List Char) (ms : List MatrixSymbol),
    s = latticeText n.latticeSymbol.minusSign n.latticeSymbol.char ++ r ∧ SymbolsAt r ms rest ∧
    n.matrixSymbols.length = ms.length ∧
    (∀ (i : Nat) (m m' first : MatrixSymbol), ms[0]? = some first → ms[i]? = some m → n.matrixSymbols[i]? = some m' →
      Defaulted i first.nfoldBody m m') ∧
    ShiftAt rest n.originShift

end Verif
