import Verif.Model.Notation

/-!
# Parsing Hall symbols

Model of src/hall_symbols/parser.rs, src/hall_symbols/lattice_symbol/parser.rs,
src/hall_symbols/matrix_symbol/parser.rs and src/hall_symbols/origin_shift/parser.rs.

A parser is a function from the remaining input to its result and the input left afterwards. For the parsers whose
failure is caught by the caller (`Option α × List Char`) the remaining input is also given on failure, because
winnow's sequencing combinators do not rewind.
-/

namespace Verif

/-- `c` is a blank of winnow's `space0`/`space1` (external; used at matrix_symbol/parser.rs:71,
origin_shift/parser.rs:13-14). -/
def isBlank (c : Char) : Bool := c == ' ' || c == '\t'

/-- winnow's `space0` (external). -/
def space0 (s : List Char) : List Char := s.dropWhile isBlank

/-- `parse_symbol_char`, src/hall_symbols/lattice_symbol/parser.rs:23-37. -/
def parseSymbolChar : List Char → Option (Lattices × List Char)
  | 'P' :: r => some (.P, r)
  | 'A' :: r => some (.A, r)
  | 'B' :: r => some (.B, r)
  | 'C' :: r => some (.C, r)
  | 'I' :: r => some (.I, r)
  | 'R' :: r => some (.R, r)
  | 'F' :: r => some (.F, r)
  | _ => none

/-- `parse_lattice_symbol` and `parse_minus_sign`, src/hall_symbols/lattice_symbol/parser.rs:9-21. -/
def parseLatticeSymbol : List Char → Option (LatticeSymbol × List Char)
  | '-' :: s => (parseSymbolChar s).map fun (c, r) => (⟨true, c⟩, r)
  | s => (parseSymbolChar s).map fun (c, r) => (⟨false, c⟩, r)

/-- The `alt` of `parse_sign_fold`, src/hall_symbols/matrix_symbol/parser.rs:72-86 (after the blanks). -/
def parseFold : List Char → Option ((Bool × NFold) × List Char)
  | '1' :: r => some ((false, .N1), r)
  | '-' :: '1' :: r => some ((true, .N1), r)
  | '2' :: r => some ((false, .N2), r)
  | '-' :: '2' :: r => some ((true, .N2), r)
  | '3' :: r => some ((false, .N3), r)
  | '-' :: '3' :: r => some ((true, .N3), r)
  | '4' :: r => some ((false, .N4), r)
  | '-' :: '4' :: r => some ((true, .N4), r)
  | '6' :: r => some ((false, .N6), r)
  | '-' :: '6' :: r => some ((true, .N6), r)
  | _ => none

/-- `parse_sign_fold`, src/hall_symbols/matrix_symbol/parser.rs:69-88. On failure the blanks skipped by
`preceded(space0, ..)` stay consumed (winnow's `preceded` does not rewind). -/
def parseSignFold (s : List Char) : Option (Bool × NFold) × List Char :=
  let t := space0 s
  match parseFold t with
  | some (v, r) => (some v, r)
  | none => (none, t)

/-- The characters of the `alt` in `parse_axis`, matrix_symbol/parser.rs:92. -/
def isAxisChar (c : Char) : Bool :=
  c == 'x' || c == 'y' || c == 'z' || c == '\'' || c == '"' || c == '*'

/-- The characters of the `one_of` in `parse_axis`, matrix_symbol/parser.rs:94. -/
def isEscapable (c : Char) : Bool := c == '"' || c == '\\' || c == '\''

/-- winnow's `take_escaped(normal, '\\', escapable)` (external) as used at matrix_symbol/parser.rs:91-95:
the recognised slice (`none` when the character after a backslash is not escapable) and the rest. -/
def takeEscaped : List Char → Option (List Char) × List Char
  | [] => (some [], [])
  | c :: cs =>
    if isAxisChar c then
      let (s, r) := takeEscaped cs
      (s.map (c :: ·), r)
    else if c = '\\' then
      match cs with
      | [] => (none, [])
      | e :: cs' =>
        if isEscapable e then
          let (s, r) := takeEscaped cs'
          (s.map (fun t => c :: e :: t), r)
        else (none, e :: cs')
    else (some [], c :: cs)

/-- The match on the slice in `parse_axis`, matrix_symbol/parser.rs:96-104, with the rejection of
`(Omitted, None)` at :106-114. -/
def axisOfSlice : List Char → Option (RotationAxis × NFoldDiag)
  | ['x'] => some (.X, .None)
  | ['y'] => some (.Y, .None)
  | ['z'] => some (.Z, .None)
  | ['\''] => some (.Omitted, .SingleQuote)
  | ['"'] => some (.Omitted, .DoubleQuote)
  | ['*'] => some (.Omitted, .Asterisk)
  | _ => none

/-- `parse_axis`, matrix_symbol/parser.rs:90-118. A rejected slice stays consumed. -/
def parseAxis (s : List Char) : Option (RotationAxis × NFoldDiag) × List Char :=
  let (sl, r) := takeEscaped s
  (sl.bind axisOfSlice, r)

/-- The digits accepted by `parse_translations`, matrix_symbol/parser.rs:124,128-129. -/
def isSubChar (c : Char) : Bool := c == '1' || c == '2' || c == '3' || c == '4' || c == '5'

/-- The letters accepted by `parse_translations`, matrix_symbol/parser.rs:124,134,148-149. -/
def isTranslationChar (c : Char) : Bool :=
  c == 'a' || c == 'b' || c == 'c' || c == 'n' || c == 'u' || c == 'v' || c == 'w' || c == 'd'

/-- `parse_translations`, matrix_symbol/parser.rs:121-168; `none` is `Err`, which consumes nothing. -/
def parseTranslations (s : List Char) :
    Option ((NFoldSub × Option (List TranslationSymbol)) × List Char) :=
  match s with
  | [] => none
  | c :: cs =>
    if isSubChar c then
      let letters := cs.takeWhile isTranslationChar
      let rest := cs.dropWhile isTranslationChar
      if letters.isEmpty then some ((NFoldSub.ofChar c, none), rest)
      else some ((NFoldSub.ofChar c, some (letters.map TranslationSymbol.ofChar)), rest)
    else if isTranslationChar c then
      some ((.None, some (((c :: cs).takeWhile isTranslationChar).map TranslationSymbol.ofChar)),
        (c :: cs).dropWhile isTranslationChar)
    else none

/-- `parse_hall_matrix_symbol`, matrix_symbol/parser.rs:15-67 (also `MatrixSymbol::try_from_str`,
matrix_symbol/mod.rs:53-55). The four arms differ only in which builder setters run; a setter that does not run
leaves the builder's default. (The test for `NFold::Invalid` at :17 cannot fire: `parse_sign_fold` never returns it.) -/
def parseMatrixSymbol (s : List Char) : Option MatrixSymbol × List Char :=
  match parseSignFold s with
  | (none, r) => (none, r)
  | (some (sign, fold), r) =>
    match parseAxis r with
    | (some (axis, diag), r') =>
      match parseTranslations r' with
      | some ((sub, trs), r'') =>
        (MatrixSymbolBuilder.build
          { minusSign := some sign, nfoldBody := some fold, rotationAxis := some axis, nfoldDiag := some diag,
            nfoldSub := some sub, translationSymbols := trs }, r'')
      | none =>
        (MatrixSymbolBuilder.build
          { minusSign := some sign, nfoldBody := some fold, rotationAxis := some axis, nfoldDiag := some diag }, r')
    | (none, r') =>
      match parseTranslations r' with
      | some ((sub, trs), r'') =>
        (MatrixSymbolBuilder.build
          { minusSign := some sign, nfoldBody := some fold, nfoldSub := some sub, translationSymbols := trs }, r'')
      | none =>
        (MatrixSymbolBuilder.build { minusSign := some sign, nfoldBody := some fold }, r')

/-- The `while let Ok(..)` loop of `parse_hall_symbol`, src/hall_symbols/parser.rs:13-15. `fuel` bounds the number of
iterations; `none` means the fuel ran out (it never does with fuel `> s.length`, see `Props/Parsing`). -/
def parseSymbols : Nat → List Char → Option (List MatrixSymbol × List Char)
  | 0, _ => none
  | fuel + 1, s =>
    match parseMatrixSymbol s with
    | (some m, r) =>
      match parseSymbols fuel r with
      | some (ms, r') => some (m :: ms, r')
      | none => none
    | (none, r) => some ([], r)

/-- Value of a run of decimal digits, most significant first. -/
def digitsVal (ds : List Char) : Nat := ds.foldl (fun acc c => acc * 10 + (c.toNat - '0'.toNat)) 0

/-- `c` is one of `0..9`. -/
def isDigit (c : Char) : Bool := '0' ≤ c && c ≤ '9'

/-- `c` is one of `1..9`. -/
def isNonZeroDigit (c : Char) : Bool := '1' ≤ c && c ≤ '9'

/-- The first alternative of winnow's `dec_int` after the optional sign (external): `[1-9][0-9]*`. -/
def parsePosDigits : List Char → Option (Nat × List Char)
  | c :: cs =>
    if isNonZeroDigit c then some (digitsVal (c :: cs.takeWhile isDigit), cs.dropWhile isDigit) else none
  | [] => none

/-- The `i32` range check of `verify_map` in winnow's `dec_int::<_, i32, _>` (external). -/
def inI32 (v : Int) : Bool := decide (-2147483648 ≤ v) && decide (v ≤ 2147483647)

/-- winnow's `dec_int::<_, i32, _>` (external; used at origin_shift/parser.rs:14): an optional sign and a digit run
not starting with `0`, or the single character `0`; `none` when it fails or overflows `i32`. -/
def decInt (s : List Char) : Option (Int × List Char) :=
  let signed : Option (Int × List Char) :=
    match s with
    | '+' :: cs => (parsePosDigits cs).map fun (n, r) => ((n : Int), r)
    | '-' :: cs => (parsePosDigits cs).map fun (n, r) => (-(n : Int), r)
    | cs => (parsePosDigits cs).map fun (n, r) => ((n : Int), r)
  match signed with
  | some (v, r) => if inI32 v then some (v, r) else none
  | none =>
    match s with
    | '0' :: r => some (0, r)
    | _ => none

/-- One more `space1`-separated integer inside `separated(1..=3, dec_int, space1)` (external; used at
origin_shift/parser.rs:14): `none` means the combinator stops and rewinds to before the separator. -/
def sepInt (s : List Char) : Option (Int × List Char) :=
  match s with
  | c :: _ => if isBlank c then decInt (space0 s) else none
  | [] => none

/-- `separated(1..=3, dec_int, space1)`, origin_shift/parser.rs:14. -/
def parseInts (s : List Char) : Option (List Int × List Char) :=
  match decInt s with
  | none => none
  | some (a, r1) =>
    match sepInt r1 with
    | none => some ([a], r1)
    | some (b, r2) =>
      match sepInt r2 with
      | none => some ([a, b], r2)
      | some (c, r3) => some ([a, b, c], r3)

/-- The `preceded(space0, delimited("(", .., ")"))` of `parse_origin_shift`, origin_shift/parser.rs:12-17;
`none` is the caught error. -/
def parseShiftList (s : List Char) : Option (List Int × List Char) :=
  match space0 s with
  | '(' :: r =>
    match parseInts r with
    | some (l, ')' :: r') => some (l, r')
    | _ => none
  | _ => none

/-- `parse_origin_shift`, origin_shift/parser.rs:11-36. A list that cannot be read gives the zero shift; a list of one
or two integers is the only error. Simplification: after a caught error the position inside the unread text is
not kept; `s` itself is returned, since nothing reads it afterwards (src/hall_symbols/parser.rs:16-22). -/
def parseOriginShift (s : List Char) : Option (OriginShift × List Char) :=
  match parseShiftList s with
  | some ([a, b, c], r) => some (OriginShift.new a b c, r)
  | some (_, _) => none
  | none => some (OriginShift.default, s)

/-- The `i == 0` rule of `restore_information_in_matrix_symbols`, src/hall_symbols/parser.rs:38-40. -/
def restoreFirst (m : MatrixSymbol) : MatrixSymbol :=
  if m.rotationAxis = .Omitted then { m with rotationAxis := .Z } else m

/-- The `i == 1` rule, src/hall_symbols/parser.rs:41-52; `prev` is the fold of the first symbol. -/
def restoreSecond (prev : NFold) (m : MatrixSymbol) : MatrixSymbol :=
  if m.nfoldBody = .N2 then
    match prev with
    | .N2 => { m with rotationAxis := .X }
    | .N4 => { m with rotationAxis := .X }
    | .N3 => { m with nfoldDiag := if m.nfoldDiag = .None then .SingleQuote else m.nfoldDiag, rotationAxis := .Z }
    | .N6 => { m with nfoldDiag := if m.nfoldDiag = .None then .SingleQuote else m.nfoldDiag, rotationAxis := .Z }
    | _ => m
  else m

/-- The `i == 2` rule, src/hall_symbols/parser.rs:53-55. -/
def restoreThird (m : MatrixSymbol) : MatrixSymbol :=
  if m.nfoldBody = .N3 then { m with nfoldDiag := .Asterisk } else m

/-- `restore_information_in_matrix_symbols`, src/hall_symbols/parser.rs:25-57 (folds are read before any change, and no
rule changes a fold). -/
def restore : List MatrixSymbol → List MatrixSymbol
  | [] => []
  | [a] => [restoreFirst a]
  | [a, b] => [restoreFirst a, restoreSecond a.nfoldBody b]
  | a :: b :: c :: rest => restoreFirst a :: restoreSecond a.nfoldBody b :: restoreThird c :: rest

/-- `parse_hall_symbol`, src/hall_symbols/parser.rs:10-23, with the unread input. `none` is `Err`. -/
def parseHallSymbol (s : List Char) : Option (HallSymbolNotation × List Char) :=
  match parseLatticeSymbol s with
  | none => none
  | some (l, r) =>
    match parseSymbols (r.length + 1) r with
    | none => none
    | some (ms, r') =>
      match parseOriginShift r' with
      | none => none
      | some (o, r'') => some (⟨l, restore ms, o⟩, r'')

/-- `HallSymbolNotation::try_from_str`, src/hall_symbols/mod.rs:56-59 (the unread input is dropped). -/
def HallSymbolNotation.tryFromStr (s : List Char) : Option HallSymbolNotation :=
  (parseHallSymbol s).map (·.1)

end Verif
