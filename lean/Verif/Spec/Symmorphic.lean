import Verif.Spec.Group

/-! # Specification: symmorphic groups -/

namespace Verif

/-- The group has a point of full symmetry: wherever an operation of the group takes the point, a translation of the group
takes it back. -/
def Symmorphic (n : HallSymbolNotation) : Prop :=
  ∃ p : Pt, ∀ f, SpaceGroup n f → ∃ τ, SpaceGroup n τ ∧ IsTranslation τ ∧ τ (f p) = p

/-- The numbers of the 73 symmorphic space-group types (International Tables, Vol. A). -/
def symmorphicNumbers : List Nat :=
  [1, 2, 3, 5, 6, 8, 10, 12, 16, 21, 22, 23, 25, 35, 38, 42, 44, 47, 65, 69, 71, 75, 79, 81, 82, 83, 87, 89, 97, 99, 107, 111,
   115, 119, 121, 123, 139, 143, 146, 147, 148, 149, 150, 155, 156, 157, 160, 162, 164, 166, 168, 174, 175, 177, 183, 187,
   189, 191, 195, 196, 197, 200, 202, 204, 207, 209, 211, 215, 216, 217, 221, 225, 229]

end Verif
