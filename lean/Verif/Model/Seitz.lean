import Verif.Model.Linear

/-!
# Seitz matrices

Model of src/hall_symbols/matrix_symbol/matrices/seitz_mat_impl.rs (abbreviated seitz_mat_impl.rs),
src/hall_symbols/matrix_symbol/matrices/mod.rs and src/utils/mod.rs.
-/

namespace Verif

/-- `SEITZ_TRANSLATE_BASE_NUMBER`, src/hall_symbols/mod.rs:31. -/
def base : Int := 12

/-- `positive_mod_stbn_i32`, src/utils/mod.rs:5-11. Rust `%` is `Int.tmod`. -/
def positiveMod (v : Int) : Int :=
  if v < 0 then Int.tmod v base + base else Int.tmod v base

/-- Reasons for a panic (`unwrap`/`expect`/`panic!`) anywhere in the modelled code:
seitz_mat_impl.rs:38 (`notRotation`), :106 (`noEigenvector`), :155 (`noInverse`), :238 (`badChar`);
src/hall_symbols/mod.rs:68 and :178 (`invalidSymbol`), :73 (`noMatrixSymbols`),
:91,:95 (`orderMismatch`), :170 (`capacityOverflow`), :210 (`parseFailed`);
src/database/mod.rs:552,559,566 (`tableIndex`). -/
inductive Panic where
  | notRotation
  | noEigenvector
  | noInverse
  | badChar
  | invalidSymbol
  | noMatrixSymbols
  | orderMismatch
  | capacityOverflow
  | parseFailed
  | tableIndex
deriving DecidableEq, Repr

/-- `RotationType`, src/hall_symbols/matrix_symbol/notations/mod.rs:117-130. -/
inductive RotationType where
  | E | N2 | N3 | N4 | N6 | I | M | M3 | M4 | M6
deriving DecidableEq, Repr

namespace RotationType

/-- `impl Ord for RotationType`, src/hall_symbols/matrix_symbol/notations/mod.rs:132-189, arm by arm. -/
def cmp : RotationType → RotationType → Ordering
  | E, E => .eq
  | E, _ => .lt
  | _, E => .gt
  | N2, N2 => .eq
  | N2, M => .lt
  | N2, I => .lt
  | N2, _ => .lt
  | N3, N2 => .gt
  | N3, M => .gt
  | N3, I => .gt
  | N3, M3 => .gt
  | N3, N3 => .eq
  | N3, _ => .lt
  | N4, I => .lt
  | N4, N2 => .lt
  | N4, M => .lt
  | N4, M3 => .lt
  | N4, N3 => .lt
  | N4, M4 => .lt
  | N4, N4 => .eq
  | N4, _ => .gt
  | N6, N6 => .eq
  | N6, _ => .lt
  | I, I => .eq
  | I, _ => .gt
  | M, I => .lt
  | M, M => .eq
  | M, _ => .gt
  | M3, N2 => .lt
  | M3, M => .lt
  | M3, I => .lt
  | M3, M3 => .eq
  | M3, _ => .gt
  | M4, I => .lt
  | M4, M => .lt
  | M4, N2 => .lt
  | M4, N3 => .lt
  | M4, M3 => .lt
  | M4, M4 => .eq
  | M4, _ => .gt
  | M6, M6 => .eq
  | M6, _ => .lt

end RotationType

namespace M4

/-- `SeitzMatrix::identity`, seitz_mat_impl.rs:55-57. -/
def identity : M4 := M4.one

/-- `SeitzMatrix::inversion`, seitz_mat_impl.rs:58-60. -/
def inversion : M4 := ⟨M3.one.map (fun v => -v), V3.zero, V3.zero, 1⟩

/-- `rotation_part`, seitz_mat_impl.rs:214-216 (upper-left 3x3 block). -/
abbrev rotationPart (m : M4) : M3 := m.rot

/-- `translation_part`, seitz_mat_impl.rs:217-219. -/
abbrev translationPart (m : M4) : V3 := m.tr

/-- `set_translation_part`, seitz_mat_impl.rs:220-224 (the whole fourth column is replaced by `(t,1)`). -/
def setTranslationPart (m : M4) (t : V3) : M4 := { m with tr := t, w := 1 }

/-- `impl PartialEq for SeitzMatrix`, seitz_mat_impl.rs:22-34. -/
def eqv (a b : M4) : Bool :=
  if a.rotationPart = b.rotationPart then
    (a.translationPart.sub b.translationPart).toList.all (fun v => Int.tmod v base == 0)
  else false

/-- `impl Mul for SeitzMatrix`, seitz_mat_impl.rs:340-353: 4x4 product, then `%= 12` on the translation. -/
def mul (a b : M4) : M4 :=
  let res := a.mulRaw b
  { res with tr := res.tr.map (fun v => Int.tmod v base) }

/-- `impl Add<Vector3<i32>> for SeitzMatrix`, seitz_mat_impl.rs:316-331. -/
def addV (a : M4) (v : V3) : M4 :=
  { a with tr := (a.tr.add v).map (fun v => Int.tmod v base) }

/-- `impl Add for SeitzMatrix`, seitz_mat_impl.rs:308-314 (entrywise). -/
def addM (a b : M4) : M4 := ⟨a.rot.add b.rot, a.tr.add b.tr, a.bot.add b.bot, a.w + b.w⟩

/-- `impl Sub for SeitzMatrix`, seitz_mat_impl.rs:333-338 (entrywise). -/
def subM (a b : M4) : M4 := ⟨a.rot.sub b.rot, a.tr.sub b.tr, a.bot.sub b.bot, a.w - b.w⟩

/-- The data fed to the hasher by `impl Hash for SeitzMatrix`, seitz_mat_impl.rs:16-20: the sixteen
entries of the matrix, column by column (the derived `Hash` of nalgebra's column-major storage). -/
def hashData (m : M4) : List Int :=
  [m.rot.m11, m.rot.m21, m.rot.m31, m.bot.x, m.rot.m12, m.rot.m22, m.rot.m32, m.bot.y,
   m.rot.m13, m.rot.m23, m.rot.m33, m.bot.z, m.tr.x, m.tr.y, m.tr.z, m.w]

/-- The loop of nalgebra's `PartialOrd for Matrix` (external; reached through `derive(PartialOrd)` on
`SeitzMatrix`, matrices/mod.rs:12): componentwise comparison, `none` when two components disagree. -/
def partialCmpLoop : Ordering → List (Int × Int) → Option Ordering
  | acc, [] => some acc
  | acc, (l, r) :: rest =>
    match compare l r with
    | .eq => partialCmpLoop acc rest
    | .lt => if acc = .gt then none else partialCmpLoop .lt rest
    | .gt => if acc = .lt then none else partialCmpLoop .gt rest

/-- `partial_cmp` derived at matrices/mod.rs:12 (`derive(PartialOrd)`), i.e. nalgebra's comparison of the
sixteen entries in storage order. -/
def partialCmp (a b : M4) : Option Ordering :=
  match a.hashData.zip b.hashData with
  | [] => some .eq
  | (l, r) :: rest => partialCmpLoop (compare l r) rest

/-- `is_unique_rotation`, seitz_mat_impl.rs:64-67. -/
def isUniqueRotation (m reference : M4) : Bool :=
  decide (m.rotationPart ≠ reference.rotationPart) &&
    decide (m.rotationPart.map (fun v => -v) ≠ reference.rotationPart)

/-- `det`, seitz_mat_impl.rs:141-143 (see `M3.det` for the `f64` simplification). -/
abbrev det (m : M4) : Int := m.rot.det

/-- `trace`, seitz_mat_impl.rs:145-147: trace of the 4x4 matrix minus 1. -/
def trace (m : M4) : Int := m.rot.trace + m.w - 1

/-- `rotation_type`, seitz_mat_impl.rs:110-126; `none` is `Err(NotRotationMatrix)`. -/
def rotationType (m : M4) : Option RotationType :=
  match m.det, m.trace with
  | -1, -3 => some .I
  | -1, -2 => some .M6
  | -1, -1 => some .M4
  | -1, 0 => some .M3
  | -1, 1 => some .M
  | 1, -1 => some .N2
  | 1, 0 => some .N3
  | 1, 1 => some .N4
  | 1, 2 => some .N6
  | 1, 3 => some .E
  | _, _ => none

/-- The match of `equiv_num`, seitz_mat_impl.rs:39-50. -/
def typeOrder : RotationType → Nat
  | .E => 1
  | .N2 => 2
  | .N3 => 3
  | .N4 => 4
  | .N6 => 6
  | .I => 1
  | .M => 2
  | .M3 => 3
  | .M4 => 4
  | .M6 => 6

/-- `equiv_num`, seitz_mat_impl.rs:36-52 (panics through `expect` on a non-rotation). -/
def equivNum (m : M4) : Except Panic Nat :=
  match m.rotationType with
  | some t => .ok (typeOrder t)
  | none => .error .notRotation

/-- `proper_rotation`, seitz_mat_impl.rs:128-139. -/
def properRotation (m : M4) : Option M3 :=
  match m.rotationType with
  | some .E => none
  | some .I => none
  | some _ => some (m.rot.map (fun v => v * m.det))
  | none => none

/-- The 27 candidates `(i,j,k)` of `eigenvector`, seitz_mat_impl.rs:72-79: each of `(-1..2).rev()`. -/
def eigenCandidates : List V3 :=
  [1, 0, -1].flatMap fun i => [1, 0, -1].flatMap fun j => [1, 0, -1].map fun k => ⟨i, j, k⟩

/-- The half-space filter of `eigenvector`, seitz_mat_impl.rs:95-103. -/
def eigenFilter (f : V3) : Bool :=
  if f.z > 0 then true
  else if f.z = 0 then
    if f.y > 0 then true else if f.y = 0 then decide (f.x > 0) else false
  else false

/-- `eigenvector`, seitz_mat_impl.rs:68-109; the final `unwrap` panics when nothing was found. -/
def eigenvector (m : M4) : Except Panic V3 :=
  let mI := m.rotationPart.sub (M3.one.map (fun v => v * m.det))
  let trials := eigenCandidates.filter
    (fun v => decide (mI.mulVec v = V3.zero) && decide (v ≠ V3.zero))
  match (trials.filter eigenFilter).head? with
  | some v => .ok v
  | none => .error .noEigenvector

/-- The `reduce` over `0..n` copies used by `powi`, seitz_mat_impl.rs:156-159,165-168, for `n ≥ 1`:
`n = k+1` copies are folded from the left with the *unreduced* 4x4 product. -/
def powLoop (m : M4) : Nat → M4
  | 0 => m
  | k + 1 => (powLoop m k).mulRaw m

/-- `powi` for exponents `≥ 0`, seitz_mat_impl.rs:163-169. (Negative exponents: `Model/Float.lean`.) -/
def powNat (m : M4) : Nat → M4
  | 0 => M4.one
  | k + 1 => powLoop m k

/-! ### Text of an operation -/

/-- `char::from_u32(..).unwrap()`, seitz_mat_impl.rs:238: panics on surrogates and beyond 0x10FFFF. -/
def charFromU32 (n : Nat) : Except Panic Char :=
  if h : n.isValidChar then .ok (Char.ofNatAux n h) else .error .badChar

/-- One entry of the text matrix of `rotation_jf_repr`, seitz_mat_impl.rs:230-245; `c` is the
code of the column's letter. -/
def entryText (c : Nat) (val : Int) : Except Panic (List Char) :=
  let v := (c : Int) * val
  match charFromU32 v.natAbs with
  | .error e => .error e
  | .ok ch =>
    if v < 0 then .ok ['-', ch] else if v = 0 then .ok ['0'] else .ok ['+', ch]

/-- One row of `rotation_jf_repr`, seitz_mat_impl.rs:248-258: concatenate, drop every `0`, strip leading `+`. -/
def rowText (a b c : Int) : Except Panic (List Char) := do
  let x ← entryText 120 a
  let y ← entryText 121 b
  let z ← entryText 122 c
  return ((x ++ y ++ z).filter (· ≠ '0')).dropWhile (· = '+')

/-- `rotation_jf_repr`, seitz_mat_impl.rs:225-260. -/
def rotationTexts (m : M4) : Except Panic (List (List Char)) := do
  let r1 ← rowText m.rot.m11 m.rot.m12 m.rot.m13
  let r2 ← rowText m.rot.m21 m.rot.m22 m.rot.m23
  let r3 ← rowText m.rot.m31 m.rot.m32 m.rot.m33
  return [r1, r2, r3]

/-- `[..].join(",")` of std, used at seitz_mat_impl.rs:262,303. -/
def joinWith (sep : List Char) : List (List Char) → List Char
  | [] => []
  | [a] => a
  | a :: rest => a ++ sep ++ joinWith sep rest

/-- `jones_faithful_repr_rot`, seitz_mat_impl.rs:261-263. -/
def jonesRot (m : M4) : Except Panic (List Char) := do
  let rows ← m.rotationTexts
  return joinWith [','] rows

/-- Decimal digits of a natural number (Rust integer `Display`). -/
def natText (n : Nat) : List Char := Nat.toDigits 10 n

/-- `Display` of a non-negative `GenericFraction<i32>` `n/12` (crate `fraction`, external; used at
seitz_mat_impl.rs:293-295 and general_positions.rs:48-49): reduced, denominator omitted when 1. -/
def fracText (n : Nat) : List Char :=
  let g := Nat.gcd n 12
  let num := n / g
  let den := 12 / g
  if den = 1 then natText num else natText num ++ '/' :: natText den

/-- Text of one translation component in `jones_faithful_repr`, seitz_mat_impl.rs:267-296. -/
def translationText (v : Int) : List Char :=
  let r := if -base + 1 ≤ v ∧ v < base then v else Int.tmod v base
  if r < 0 then '-' :: fracText r.natAbs
  else if r = 0 then []
  else '+' :: fracText r.natAbs

/-- `jones_faithful_repr`, seitz_mat_impl.rs:264-305. -/
def jones (m : M4) : Except Panic (List Char) := do
  let rows ← m.rotationTexts
  let ts := m.translationPart.toList.map translationText
  return joinWith [','] ((rows.zip ts).map fun (r, t) => r ++ t)

end M4

end Verif
