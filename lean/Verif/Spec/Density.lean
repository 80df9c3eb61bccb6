import Verif.Spec.Group

/-! # Specification: densities -/

namespace Verif

/-- A function on space with the period of the cell. -/
def CellPeriodic {A : Type*} (ρ : Pt → A) : Prop := ∀ p k, ρ (p.addCell k) = ρ p

/-- A function on space that all operations of the group leave alone. -/
def Symmetric {A : Type*} (n : HallSymbolNotation) (ρ : Pt → A) : Prop := ∀ f, SpaceGroup n f → ∀ p, ρ (f p) = ρ p

/-- The sum of the values at all images of a point. -/
def symmetrised {A : Type*} [AddCommMonoid A] (ops : List M4) (ρ : Pt → A) (p : Pt) : A := (ops.map fun m => ρ (m.act p)).sum

end Verif
