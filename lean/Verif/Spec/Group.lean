import Verif.Spec.Affine
import Verif.Model.Positions

/-!
# Specification: the space group a Hall symbol denotes

A group of maps of space, given by generators; it does not mention the closure loop, the reduction of translations, or
any other part of position generation. The only part of the code it refers to is which Seitz matrix a single matrix
symbol denotes (properties C24-C28 are about that).
-/

namespace Verif

/-- The group generated by whole-cell translations, the centring translations, the inversion at the origin (for a
leading `-`), and the matrix symbols' operations moved by the origin shift. -/
inductive SpaceGroup (n : HallSymbolNotation) : (Pt → Pt) → Prop
  | one : SpaceGroup n id
  | cell (k : V3) : SpaceGroup n (fun p => p.addCell k)
  | centring {v : V3} : v ∈ n.latticeSymbol.translations → SpaceGroup n (fun p => p.addTwelfths v)
  | inversion : n.latticeSymbol.minusSign = true → SpaceGroup n (fun p => ⟨-p.x, -p.y, -p.z⟩)
  | generator {s : MatrixSymbol} {g : M4} : s ∈ n.matrixSymbols → s.seitzMatrix = some g →
      SpaceGroup n (fun p => (g.act (p.subTwelfths n.originShift.vec)).addTwelfths n.originShift.vec)
  | comp {f g : Pt → Pt} : SpaceGroup n f → SpaceGroup n g → SpaceGroup n (f ∘ g)
  | inv {f g : Pt → Pt} : SpaceGroup n f → f ∘ g = id → g ∘ f = id → SpaceGroup n g

/-- `f` is a translation. -/
def IsTranslation (f : Pt → Pt) : Prop := ∃ q : Pt, ∀ p, f p = ⟨p.x + q.x, p.y + q.y, p.z + q.z⟩

/-- `f` is a lattice translation: whole cells plus one of the centring vectors. -/
def IsLatticeTranslation (l : LatticeSymbol) (f : Pt → Pt) : Prop :=
  ∃ v ∈ l.translations, ∃ k : V3, ∀ p, f p = (p.addTwelfths v).addCell k

/-- The symbol is consistent: the only translations in its group are the lattice translations it declares. -/
def Consistent (n : HallSymbolNotation) : Prop :=
  ∀ f, SpaceGroup n f → IsTranslation f → IsLatticeTranslation n.latticeSymbol f

/-- `f` is listed: up to whole cells it is one of the operations of `derive_full_sets`. -/
def Listed (g : GeneralPositions) (f : Pt → Pt) : Prop :=
  ∃ set ∈ g.deriveFullSets, ∃ m ∈ set, SameModCell f m.act

/-- `f` is one of the core positions up to lattice translations. -/
def ListedModLattice (l : LatticeSymbol) (core : List M4) (f : Pt → Pt) : Prop :=
  ∃ m ∈ core, ∃ τ, IsLatticeTranslation l τ ∧ f = τ ∘ m.act

/-- The point group: rotation parts of the operations of the group. -/
def PointGroup (n : HallSymbolNotation) : Set M3 :=
  {r | ∃ f, SpaceGroup n f ∧ ∃ m : M4, m.rot = r ∧ f = m.act}

end Verif
