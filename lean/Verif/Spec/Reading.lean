import Verif.Model.Parser
import Verif.Spec.Syntax

/-! # Specification: reading matrix symbols one after the other

Uses only the public `MatrixSymbol::try_from_str`, which returns a symbol (or an error) and advances its input. -/

namespace Verif

/-- Reading matrix symbols one after the other until the next one cannot be read. -/
inductive ReadsSymbols : List Char → List MatrixSymbol → List Char → Prop
  | stop {s r : List Char} : parseMatrixSymbol s = (none, r) → ReadsSymbols s [] r
  | next {s r rest : List Char} {m : MatrixSymbol} {ms : List MatrixSymbol} : parseMatrixSymbol s = (some m, r) →
      ReadsSymbols r ms rest → ReadsSymbols s (m :: ms) rest

end Verif
