/-!
# Integer vectors and matrices

`nalgebra::Vector3<i32>`, `Matrix3<i32>`, `Matrix4<i32>` (external crate) with `i32` read as `Int`.
-/

namespace Verif

/-- `nalgebra::Vector3<i32>`; used e.g. at src/hall_symbols/translation_symbol.rs:19-31,
src/hall_symbols/mod.rs:103. Simplification: components are unbounded integers. -/
structure V3 where
  x : Int
  y : Int
  z : Int
deriving DecidableEq, Repr, Inhabited

namespace V3

/-- `Vector3::zeros()`, src/hall_symbols/translation_symbol.rs:29. -/
def zero : V3 := ⟨0, 0, 0⟩

/-- Vector addition of nalgebra, used at src/hall_symbols/mod.rs:109. -/
def add (a b : V3) : V3 := ⟨a.x + b.x, a.y + b.y, a.z + b.z⟩

/-- Vector subtraction of nalgebra, used at seitz_mat_impl.rs:27 (`tr_part - tr_part_rhs`). -/
def sub (a b : V3) : V3 := ⟨a.x - b.x, a.y - b.y, a.z - b.z⟩

/-- Negation, used at src/hall_symbols/origin_shift/mod.rs:48 (`v.neg()` on each component). -/
def neg (a : V3) : V3 := ⟨-a.x, -a.y, -a.z⟩

/-- Product by a scalar (one block of the 4x4 product of nalgebra, seitz_mat_impl.rs:345). -/
def smul (k : Int) (a : V3) : V3 := ⟨k * a.x, k * a.y, k * a.z⟩

/-- Dot product (one block of the 4x4 product of nalgebra, seitz_mat_impl.rs:345). -/
def dot (a b : V3) : Int := a.x * b.x + a.y * b.y + a.z * b.z

/-- `Vector3::map`, used at src/hall_symbols/mod.rs:104,110. -/
def map (f : Int → Int) (a : V3) : V3 := ⟨f a.x, f a.y, f a.z⟩

/-- `Vector3::iter()` collected, used at src/hall_symbols/mod.rs:114-115,149. -/
def toList (a : V3) : List Int := [a.x, a.y, a.z]

/-- `norm_squared` of a vector of small integers cast to `f64` (src/hall_symbols/mod.rs:113).
Simplification: computed in `Int`; the `f64` value is exact below 2^53. -/
def normSq (a : V3) : Int := a.x * a.x + a.y * a.y + a.z * a.z

end V3

/-- `nalgebra::Matrix3<i32>` (row `i`, column `j` is `mij`); rotation parts, seitz_mat_impl.rs:214.
Simplification: entries are unbounded integers. -/
structure M3 where
  m11 : Int
  m12 : Int
  m13 : Int
  m21 : Int
  m22 : Int
  m23 : Int
  m31 : Int
  m32 : Int
  m33 : Int
deriving DecidableEq, Repr, Inhabited

namespace M3

/-- `Matrix3::identity()`, seitz_mat_impl.rs:59. -/
def one : M3 := ⟨1, 0, 0, 0, 1, 0, 0, 0, 1⟩

/-- Matrix product of nalgebra, the rotation block of seitz_mat_impl.rs:345. -/
def mul (a b : M3) : M3 :=
  ⟨a.m11 * b.m11 + a.m12 * b.m21 + a.m13 * b.m31,
   a.m11 * b.m12 + a.m12 * b.m22 + a.m13 * b.m32,
   a.m11 * b.m13 + a.m12 * b.m23 + a.m13 * b.m33,
   a.m21 * b.m11 + a.m22 * b.m21 + a.m23 * b.m31,
   a.m21 * b.m12 + a.m22 * b.m22 + a.m23 * b.m32,
   a.m21 * b.m13 + a.m22 * b.m23 + a.m23 * b.m33,
   a.m31 * b.m11 + a.m32 * b.m21 + a.m33 * b.m31,
   a.m31 * b.m12 + a.m32 * b.m22 + a.m33 * b.m32,
   a.m31 * b.m13 + a.m32 * b.m23 + a.m33 * b.m33⟩

/-- Matrix times column vector of nalgebra, seitz_mat_impl.rs:82 (`m_i * eigen_trial`). -/
def mulVec (a : M3) (v : V3) : V3 :=
  ⟨a.m11 * v.x + a.m12 * v.y + a.m13 * v.z,
   a.m21 * v.x + a.m22 * v.y + a.m23 * v.z,
   a.m31 * v.x + a.m32 * v.y + a.m33 * v.z⟩

/-- Row vector times matrix (one block of the 4x4 product, seitz_mat_impl.rs:345). -/
def vecMul (v : V3) (a : M3) : V3 :=
  ⟨v.x * a.m11 + v.y * a.m21 + v.z * a.m31,
   v.x * a.m12 + v.y * a.m22 + v.z * a.m32,
   v.x * a.m13 + v.y * a.m23 + v.z * a.m33⟩

/-- Column times row (one block of the 4x4 product, seitz_mat_impl.rs:345). -/
def outer (u v : V3) : M3 :=
  ⟨u.x * v.x, u.x * v.y, u.x * v.z, u.y * v.x, u.y * v.y, u.y * v.z, u.z * v.x, u.z * v.y, u.z * v.z⟩

/-- `Matrix3::map`, used at seitz_mat_impl.rs:59,66,71,134. -/
def map (f : Int → Int) (a : M3) : M3 :=
  ⟨f a.m11, f a.m12, f a.m13, f a.m21, f a.m22, f a.m23, f a.m31, f a.m32, f a.m33⟩

/-- Entrywise sum (nalgebra `Add`, seitz_mat_impl.rs:312). -/
def add (a b : M3) : M3 :=
  ⟨a.m11 + b.m11, a.m12 + b.m12, a.m13 + b.m13, a.m21 + b.m21, a.m22 + b.m22, a.m23 + b.m23,
   a.m31 + b.m31, a.m32 + b.m32, a.m33 + b.m33⟩

/-- Entrywise difference (nalgebra `Sub`, seitz_mat_impl.rs:71). -/
def sub (a b : M3) : M3 :=
  ⟨a.m11 - b.m11, a.m12 - b.m12, a.m13 - b.m13, a.m21 - b.m21, a.m22 - b.m22, a.m23 - b.m23,
   a.m31 - b.m31, a.m32 - b.m32, a.m33 - b.m33⟩

/-- `Matrix3::determinant` (nalgebra, explicit 3x3 formula), used at seitz_mat_impl.rs:142.
Simplification: computed in `Int`; the code computes it in `f64`, exactly for entries of crystallographic size. -/
def det (a : M3) : Int :=
  a.m11 * (a.m22 * a.m33 - a.m32 * a.m23) - a.m12 * (a.m21 * a.m33 - a.m31 * a.m23)
    + a.m13 * (a.m21 * a.m32 - a.m31 * a.m22)

/-- Sum of the diagonal (part of `Matrix4::trace`, seitz_mat_impl.rs:146). -/
def trace (a : M3) : Int := a.m11 + a.m22 + a.m33

/-- All entries, row by row (only used to state contracts about entries; nalgebra iterates by column). -/
def toList (a : M3) : List Int :=
  [a.m11, a.m12, a.m13, a.m21, a.m22, a.m23, a.m31, a.m32, a.m33]

end M3

/-- `nalgebra::Matrix4<i32>` in blocks `[rot tr; bot w]`: all sixteen entries; also `SeitzMatrix`
(src/hall_symbols/matrix_symbol/matrices/mod.rs:12-13, a newtype of `Matrix4<i32>`). -/
structure M4 where
  rot : M3
  tr : V3
  bot : V3
  w : Int
deriving DecidableEq, Repr, Inhabited

namespace M4

/-- `Matrix4::identity()`, seitz_mat_impl.rs:56. -/
def one : M4 := ⟨M3.one, V3.zero, V3.zero, 1⟩

/-- The plain 4x4 product of nalgebra (no reduction), seitz_mat_impl.rs:158,167,345, in block form. -/
def mulRaw (a b : M4) : M4 :=
  ⟨(a.rot.mul b.rot).add (M3.outer a.tr b.bot),
   (a.rot.mulVec b.tr).add (V3.smul b.w a.tr),
   (M3.vecMul a.bot b.rot).add (V3.smul a.w b.bot),
   V3.dot a.bot b.tr + a.w * b.w⟩

end M4

end Verif
