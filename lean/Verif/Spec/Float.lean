/-!
# Specification: sums of twelfths in double precision
-/

namespace Verif

/-- Fifteen pairs `(a, b)` for which `a/12 + b/12`, computed in double precision, multiplied by 12 and truncated, is not
`a + b`. -/
def lossyPairs : List (Int × Int) :=
  [(11, 3), (11, -4), (11, -5), (11, -7), (11, -9), (11, -10), (9, -7), (8, 6), (8, -1), (8, -5), (8, -6), (8, -7),
   (6, -5), (4, 3), (4, -3)]

/-- `(a, b)` is one of the fifteen pairs up to order and a common sign. -/
def Lossy (a b : Int) : Prop :=
  (a, b) ∈ lossyPairs ∨ (b, a) ∈ lossyPairs ∨ (-a, -b) ∈ lossyPairs ∨ (-b, -a) ∈ lossyPairs

instance (a b : Int) : Decidable (Lossy a b) := inferInstanceAs (Decidable (_ ∨ _))

end Verif
