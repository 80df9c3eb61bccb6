import Verif.Model.Seitz

/-!
# Inverses computed in `f64`

Model of `to_f64_mat`, `try_inverse` and `powi` (seitz_mat_impl.rs:149-213) and of the routine
`do_inverse4` of nalgebra that `try_inverse` calls (external; the formulas are those of nalgebra's
src/linalg/inverse.rs, which is not in this sandbox).

A finite `f64` is represented by its rational value. Simplifications: the sign of zero, subnormal numbers, overflow to
infinity and NaN are not modelled; none is reached from matrices with entries of at most nine decimal digits.
-/

namespace Verif

/-- The integer nearest to `n/d`, ties to the even one (IEEE 754 roundTiesToEven on the significand). -/
def roundHalfEven (n : Int) (d : Nat) : Int :=
  let q := n / (d : Int)
  let r := n % (d : Int)
  if 2 * r < d then q else if 2 * r > d then q + 1 else if q % 2 = 0 then q else q + 1

/-- The numerator and denominator of `q * 2^(-s)`, for any integer `s`. -/
def scalePow (q : Rat) (s : Int) : Int × Nat :=
  if s ≥ 0 then (q.num, q.den * 2 ^ s.toNat) else (q.num * 2 ^ (-s).toNat, q.den)

/-- `⌊log2 |q|⌋` of a rational `q ≠ 0`. -/
def floorLog2 (q : Rat) : Int :=
  let k : Int := (Nat.log2 q.num.natAbs : Int) - (Nat.log2 q.den : Int)
  let (n, d) := scalePow q k
  if n.natAbs < d then k - 1 else k

/-- Rounding of a real (here rational) result to the nearest `f64`, as every `f64` operation of the code does. -/
def rnd (q : Rat) : Rat :=
  if q = 0 then 0
  else
    let s := floorLog2 q - 52
    let (n, d) := scalePow q s
    let m := roundHalfEven n d
    if s ≥ 0 then ((m * 2 ^ s.toNat : Int) : Rat) else mkRat m (2 ^ (-s).toNat)

/-- `f64` multiplication. -/
def fmul (a b : Rat) : Rat := rnd (a * b)

/-- `f64` addition. -/
def fadd (a b : Rat) : Rat := rnd (a + b)

/-- `f64` subtraction. -/
def fsub (a b : Rat) : Rat := rnd (a - b)

/-- `f64` division. -/
def fdiv (a b : Rat) : Rat := rnd (a / b)

/-- Rust's `v as i32` of an `f64`: truncation towards zero, saturating. -/
def toI32 (q : Rat) : Int :=
  let v := Int.tdiv q.num q.den
  if v < -2147483648 then -2147483648 else if v > 2147483647 then 2147483647 else v

/-- A 4x4 matrix of `f64` in column-major order: `m k` is nalgebra's `m.as_slice()[k]`. -/
abbrev F16 := Nat → Rat

/-- `to_f64_mat`, seitz_mat_impl.rs:177-189: the entries, the translation divided by 12. -/
def M4.toF64 (m : M4) : F16 := fun
  | 0 => m.rot.m11 | 1 => m.rot.m21 | 2 => m.rot.m31 | 3 => m.bot.x
  | 4 => m.rot.m12 | 5 => m.rot.m22 | 6 => m.rot.m32 | 7 => m.bot.y
  | 8 => m.rot.m13 | 9 => m.rot.m23 | 10 => m.rot.m33 | 11 => m.bot.z
  | 12 => fdiv m.tr.x 12 | 13 => fdiv m.tr.y 12 | 14 => fdiv m.tr.z 12 | 15 => m.w
  | _ => 0

/-- `m[a] * m[b] * m[c]` in `f64`. (`-m[a] * m[b] * m[c]` is minus this: rounding is symmetric.) -/
def F16.p (m : F16) (a b c : Nat) : Rat := fmul (fmul (m a) (m b)) (m c)

/-- `+p1 - p2 - p3 + p4 + p5 - p6` in `f64`, from left to right: the shape of one half of the cofactors. -/
def sumPos (p1 p2 p3 p4 p5 p6 : Rat) : Rat := fsub (fadd (fadd (fsub (fsub p1 p2) p3) p4) p5) p6

/-- `-p1 + p2 + p3 - p4 - p5 + p6` in `f64`: the shape of the other half. -/
def sumNeg (p1 p2 p3 p4 p5 p6 : Rat) : Rat := fadd (fsub (fsub (fadd (fadd (-p1) p2) p3) p4) p5) p6

/-- The sixteen cofactors of nalgebra's `do_inverse4` (external; reached from seitz_mat_impl.rs:206), column-major:
`cofactor m (i + 4*j)` is assigned to `out[(i, j)]`. -/
def F16.cofactor (m : F16) : F16 := fun
  | 0 => sumPos (m.p 5 10 15) (m.p 5 11 14) (m.p 9 6 15) (m.p 9 7 14) (m.p 13 6 11) (m.p 13 7 10)
  | 1 => sumNeg (m.p 1 10 15) (m.p 1 11 14) (m.p 9 2 15) (m.p 9 3 14) (m.p 13 2 11) (m.p 13 3 10)
  | 2 => sumPos (m.p 1 6 15) (m.p 1 7 14) (m.p 5 2 15) (m.p 5 3 14) (m.p 13 2 7) (m.p 13 3 6)
  | 3 => sumNeg (m.p 1 6 11) (m.p 1 7 10) (m.p 5 2 11) (m.p 5 3 10) (m.p 9 2 7) (m.p 9 3 6)
  | 4 => sumNeg (m.p 4 10 15) (m.p 4 11 14) (m.p 8 6 15) (m.p 8 7 14) (m.p 12 6 11) (m.p 12 7 10)
  | 5 => sumPos (m.p 0 10 15) (m.p 0 11 14) (m.p 8 2 15) (m.p 8 3 14) (m.p 12 2 11) (m.p 12 3 10)
  | 6 => sumNeg (m.p 0 6 15) (m.p 0 7 14) (m.p 4 2 15) (m.p 4 3 14) (m.p 12 2 7) (m.p 12 3 6)
  | 7 => sumPos (m.p 0 6 11) (m.p 0 7 10) (m.p 4 2 11) (m.p 4 3 10) (m.p 8 2 7) (m.p 8 3 6)
  | 8 => sumPos (m.p 4 9 15) (m.p 4 11 13) (m.p 8 5 15) (m.p 8 7 13) (m.p 12 5 11) (m.p 12 7 9)
  | 9 => sumNeg (m.p 0 9 15) (m.p 0 11 13) (m.p 8 1 15) (m.p 8 3 13) (m.p 12 1 11) (m.p 12 3 9)
  | 10 => sumPos (m.p 0 5 15) (m.p 0 7 13) (m.p 4 1 15) (m.p 4 3 13) (m.p 12 1 7) (m.p 12 3 5)
  | 11 => sumNeg (m.p 0 5 11) (m.p 0 7 9) (m.p 4 1 11) (m.p 4 3 9) (m.p 8 1 7) (m.p 8 3 5)
  | 12 => sumNeg (m.p 4 9 14) (m.p 4 10 13) (m.p 8 5 14) (m.p 8 6 13) (m.p 12 5 10) (m.p 12 6 9)
  | 13 => sumPos (m.p 0 9 14) (m.p 0 10 13) (m.p 8 1 14) (m.p 8 2 13) (m.p 12 1 10) (m.p 12 2 9)
  | 14 => sumNeg (m.p 0 5 14) (m.p 0 6 13) (m.p 4 1 14) (m.p 4 2 13) (m.p 12 1 6) (m.p 12 2 5)
  | 15 => sumPos (m.p 0 5 10) (m.p 0 6 9) (m.p 4 1 10) (m.p 4 2 9) (m.p 8 1 6) (m.p 8 2 5)
  | _ => 0

/-- The determinant computed by nalgebra's `do_inverse4` (external). -/
def F16.det4 (m : F16) : Rat :=
  let c := m.cofactor
  fadd (fadd (fadd (fmul (m 0) (c 0)) (fmul (m 1) (c 4))) (fmul (m 2) (c 8))) (fmul (m 3) (c 12))

/-- nalgebra's `Matrix4<f64>::try_inverse` (external; called at seitz_mat_impl.rs:206): `None` when the determinant is
zero, otherwise the cofactors times `1/det`. -/
def F16.tryInverse (m : F16) : Option F16 :=
  let d := m.det4
  if d = 0 then none else some (fun k => fmul (m.cofactor k) (fdiv 1 d))

/-- `try_inverse`, seitz_mat_impl.rs:205-213: the translation times 12, then every entry cast to `i32`. -/
def M4.tryInverse (m : M4) : Option M4 :=
  match m.toF64.tryInverse with
  | none => none
  | some v =>
    some ⟨⟨toI32 (v 0), toI32 (v 4), toI32 (v 8), toI32 (v 1), toI32 (v 5), toI32 (v 9),
           toI32 (v 2), toI32 (v 6), toI32 (v 10)⟩,
          ⟨toI32 (fmul (v 12) 12), toI32 (fmul (v 13) 12), toI32 (fmul (v 14) 12)⟩,
          ⟨toI32 (v 3), toI32 (v 7), toI32 (v 11)⟩, toI32 (v 15)⟩

/-- `det`, seitz_mat_impl.rs:141-143: nalgebra's `Matrix3<f64>::determinant` (external; explicit formula by minors of the
first row) of the upper-left block, cast to `i32`. -/
def M4.detF64 (m : M4) : Int :=
  let r := m.rot
  let a := fsub (fmul r.m22 r.m33) (fmul r.m32 r.m23)
  let b := fsub (fmul r.m21 r.m33) (fmul r.m31 r.m23)
  let c := fsub (fmul r.m21 r.m32) (fmul r.m31 r.m22)
  toI32 (fadd (fsub (fmul r.m11 a) (fmul r.m12 b)) (fmul r.m13 c))

/-- `powi`, seitz_mat_impl.rs:150-171. Simplification: the exponent is an unbounded integer (`i32::MIN.abs()` overflows
in the code). -/
def M4.powi (m : M4) : Int → Except Panic M4
  | .ofNat k => .ok (m.powNat k)
  | .negSucc k =>
    match m.tryInverse with
    | some inv => .ok (inv.powLoop k)
    | none => .error .noInverse

end Verif
