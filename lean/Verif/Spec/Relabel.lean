import Verif.Spec.Group

/-!
# Specification: renaming the axes, and the mirror image

Renaming a to b, b to c, c to a in a notation, and what it does to points. The mirror image of a notation has its screw
subscripts replaced by their complements.
-/

namespace Verif

/-- The point whose b, c, a coordinates are the a, b, c coordinates of `p`. -/
def Pt.relabel (p : Pt) : Pt := ⟨p.z, p.x, p.y⟩

/-- The way back. -/
def Pt.unlabel (p : Pt) : Pt := ⟨p.y, p.z, p.x⟩

/-- x becomes y, y becomes z, z becomes x. -/
def RotationAxis.relabel : RotationAxis → RotationAxis
  | .X => .Y
  | .Y => .Z
  | .Z => .X
  | .Omitted => .Omitted

/-- a becomes b, b becomes c, c becomes a, and likewise u, v, w. -/
def TranslationSymbol.relabel : TranslationSymbol → TranslationSymbol
  | .A => .B
  | .B => .C
  | .C => .A
  | .U => .V
  | .V => .W
  | .W => .U
  | t => t

/-- A (centred bc) becomes B (centred ca), B becomes C, C becomes A. -/
def Lattices.relabel : Lattices → Lattices
  | .A => .B
  | .B => .C
  | .C => .A
  | l => l

def MatrixSymbol.relabel (s : MatrixSymbol) : MatrixSymbol :=
  { s with rotationAxis := s.rotationAxis.relabel,
           translationSymbols := s.translationSymbols.map (List.map TranslationSymbol.relabel) }

/-- The notation with its axes renamed. -/
def HallSymbolNotation.relabel (n : HallSymbolNotation) : HallSymbolNotation :=
  { latticeSymbol := { n.latticeSymbol with char := n.latticeSymbol.char.relabel },
    matrixSymbols := n.matrixSymbols.map MatrixSymbol.relabel,
    originShift := ⟨n.originShift.vc, n.originShift.va, n.originShift.vb⟩ }

/-- The point on the other side of the origin. -/
def Pt.opposite (p : Pt) : Pt := ⟨-p.x, -p.y, -p.z⟩

/-- The subscript of the screw of opposite hand: T becomes N - T. -/
def mirrorSub : NFold → NFoldSub → NFoldSub
  | .N3, .N1 => .N2
  | .N3, .N2 => .N1
  | .N4, .N1 => .N3
  | .N4, .N3 => .N1
  | .N6, .N1 => .N5
  | .N6, .N5 => .N1
  | .N6, .N2 => .N4
  | .N6, .N4 => .N2
  | _, s => s

/-- The notation of opposite hand: complementary screws, opposite origin shift. -/
def HallSymbolNotation.mirror (n : HallSymbolNotation) : HallSymbolNotation :=
  { latticeSymbol := n.latticeSymbol,
    matrixSymbols := n.matrixSymbols.map fun s => { s with nfoldSub := mirrorSub s.nfoldBody s.nfoldSub },
    originShift := ⟨-n.originShift.va, -n.originShift.vb, -n.originShift.vc⟩ }

/-- No translation by a quarter is written: all translation letters are a, b, c or n. -/
def HallSymbolNotation.HalvesOnly (n : HallSymbolNotation) : Prop :=
  ∀ s ∈ n.matrixSymbols, ∀ l, s.translationSymbols = some l → ∀ t ∈ l, t = .A ∨ t = .B ∨ t = .C ∨ t = .N

end Verif
