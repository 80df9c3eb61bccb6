/-!
# `CrystalSystem`

Model of src/database/crystal_system.rs.
-/

namespace Verif

/-- `CrystalSystem`, crystal_system.rs:3-13. -/
inductive CrystalSystem
  | Triclinic | Monoclinic | Orthorhombic | Tetragonal | Trigonal | Hexagonal | Cubic
deriving DecidableEq, Repr

namespace CrystalSystem

/-- `Default`, crystal_system.rs:3-5. -/
def default : CrystalSystem := .Triclinic

/-- Position of the variant in the declaration, crystal_system.rs:6-12. -/
def position : CrystalSystem → Nat
  | .Triclinic => 0 | .Monoclinic => 1 | .Orthorhombic => 2 | .Tetragonal => 3 | .Trigonal => 4 | .Hexagonal => 5
  | .Cubic => 6

/-- Derived `cmp`, crystal_system.rs:3: by the position of the variant. -/
def cmp (a b : CrystalSystem) : Ordering := compare a.position b.position

/-- Derived `Debug`, crystal_system.rs:3: the name of the variant. -/
def debugText : CrystalSystem → List Char
  | .Triclinic => "Triclinic".toList
  | .Monoclinic => "Monoclinic".toList
  | .Orthorhombic => "Orthorhombic".toList
  | .Tetragonal => "Tetragonal".toList
  | .Trigonal => "Trigonal".toList
  | .Hexagonal => "Hexagonal".toList
  | .Cubic => "Cubic".toList

/-- `Display`, crystal_system.rs:15-20: the debug name through `to_lowercase` (std; only ASCII letters occur). -/
def text (s : CrystalSystem) : List Char := s.debugText.map Char.toLower

end CrystalSystem
end Verif
