import Verif.Spec.CrystalClass

/-! # Specification: groups of opposite hand -/

namespace Verif

/-- The second group is of the type of the mirror image of the first: an orientation-reversing change of basis and origin
turns one into the other. -/
def MirrorType (n n' : HallSymbolNotation) : Prop :=
  ∃ (a : M3) (d : Nat) (q : Pt), 0 < d ∧ a.det < 0 ∧
    ∀ f f' : Pt → Pt, changeOfBasis a d q ∘ f = f' ∘ changeOfBasis a d q → (SpaceGroup n f ↔ SpaceGroup n' f')

/-- The eleven enantiomorphic pairs of space-group numbers of the International Tables. -/
def enantiomorphs : List (Nat × Nat) :=
  [(76, 78), (91, 95), (92, 96), (144, 145), (151, 153), (152, 154), (169, 170), (171, 172), (178, 179), (180, 181), (212, 213)]

/-- The number of the mirror image. -/
def mirrorNumber (k : Nat) : Nat :=
  match enantiomorphs.find? (fun p => p.1 == k || p.2 == k) with
  | some (a, b) => if k = a then b else a
  | none => k

end Verif
