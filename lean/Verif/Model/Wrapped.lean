import Verif.Model.Checked

/-!
# The same code with wrapping 32-bit arithmetic

Model/Checked.lean models a debug build. This file models the arithmetic as a release build performs it (the default
profile of Cargo: `overflow-checks` off; /repo/Cargo.toml sets nothing else): every sum, difference, product and
negation of `i32` values is taken modulo 2^32, and nothing panics. Function by function it follows Model/Checked;
citations of the Rust source are repeated.
-/

namespace Verif

/-- The result of one `i32` operation whose exact value is `v` in a release build: the value of the range of `i32` that
is congruent to `v` modulo 2^32 (Rust language semantics; every `+`, `-`, `*` and unary `-` of /repo/src on `i32`). -/
def wrap (v : Int) : Int := (v + 2147483648) % 4294967296 - 2147483648

/-- Vector sum (src/hall_symbols/mod.rs:109,146,148; `sum` at rotation_matrices.rs:275). -/
def V3.addW (a b : V3) : V3 := ⟨wrap (a.x + b.x), wrap (a.y + b.y), wrap (a.z + b.z)⟩

/-- Vector difference (seitz_mat_impl.rs:27). -/
def V3.subW (a b : V3) : V3 := ⟨wrap (a.x - b.x), wrap (a.y - b.y), wrap (a.z - b.z)⟩

/-- Negation of a vector (origin_shift/mod.rs:48). -/
def V3.negW (a : V3) : V3 := ⟨wrap (-a.x), wrap (-a.y), wrap (-a.z)⟩

/-- One entry of a 4x4 product (nalgebra, external), accumulated as in `dot4C` (seitz_mat_impl.rs:158,167,345;
origin_shift/mod.rs:58). -/
def dot4W (a1 b1 a2 b2 a3 b3 a4 b4 : Int) : Int :=
  let s2 := wrap (wrap (a1 * b1) + wrap (a2 * b2))
  let s3 := wrap (s2 + wrap (a3 * b3))
  wrap (s3 + wrap (a4 * b4))

/-- The plain 4x4 product, seitz_mat_impl.rs:158,167,345. -/
def M4.mulRawW (a b : M4) : M4 :=
  let entry (r : V3 × Int) (c : V3 × Int) := dot4W r.1.x c.1.x r.1.y c.1.y r.1.z c.1.z r.2 c.2
  let r1 : V3 × Int := (⟨a.rot.m11, a.rot.m12, a.rot.m13⟩, a.tr.x)
  let r2 : V3 × Int := (⟨a.rot.m21, a.rot.m22, a.rot.m23⟩, a.tr.y)
  let r3 : V3 × Int := (⟨a.rot.m31, a.rot.m32, a.rot.m33⟩, a.tr.z)
  let r4 : V3 × Int := (a.bot, a.w)
  let c1 : V3 × Int := (⟨b.rot.m11, b.rot.m21, b.rot.m31⟩, b.bot.x)
  let c2 : V3 × Int := (⟨b.rot.m12, b.rot.m22, b.rot.m32⟩, b.bot.y)
  let c3 : V3 × Int := (⟨b.rot.m13, b.rot.m23, b.rot.m33⟩, b.bot.z)
  let c4 : V3 × Int := (b.tr, b.w)
  ⟨⟨entry r1 c1, entry r1 c2, entry r1 c3, entry r2 c1, entry r2 c2, entry r2 c3, entry r3 c1, entry r3 c2, entry r3 c3⟩,
    ⟨entry r1 c4, entry r2 c4, entry r3 c4⟩, ⟨entry r4 c1, entry r4 c2, entry r4 c3⟩, entry r4 c4⟩

/-- `impl Mul for SeitzMatrix`, seitz_mat_impl.rs:340-353. -/
def M4.mulW (a b : M4) : M4 :=
  let res := a.mulRawW b
  { res with tr := res.tr.map (fun v => Int.tmod v base) }

/-- `impl Add<Vector3<i32>> for SeitzMatrix`, seitz_mat_impl.rs:316-331. -/
def M4.addVW (a : M4) (v : V3) : M4 := { a with tr := (a.tr.addW v).map (fun v => Int.tmod v base) }

/-- `impl PartialEq for SeitzMatrix`, seitz_mat_impl.rs:22-34. -/
def M4.eqvW (a b : M4) : Bool :=
  if a.rotationPart = b.rotationPart then
    (a.translationPart.subW b.translationPart).toList.all (fun v => Int.tmod v base == 0)
  else false

/-- The `reduce` of `powi`, seitz_mat_impl.rs:165-168. -/
def M4.powLoopW (m : M4) : Nat → M4
  | 0 => m
  | k + 1 => (powLoopW m k).mulRawW m

/-- `powi` for exponents `≥ 0`, seitz_mat_impl.rs:163-169. -/
def M4.powNatW (m : M4) : Nat → M4
  | 0 => M4.one
  | k + 1 => m.powLoopW k

/-- `OriginShift::shifted_matrix`, origin_shift/mod.rs:47-64. -/
def OriginShift.shiftedMatrixW (s : OriginShift) (m : M4) : M4 :=
  let mv : M4 := ⟨M3.one, s.vec.negW, V3.zero, 1⟩
  let mvi : M4 := ⟨M3.one, s.vec, V3.zero, 1⟩
  let r := (mvi.mulRawW m).mulRawW mv
  { r with tr := r.tr.map positiveMod, w := positiveMod r.w }

/-- `translations.iter().map(translation_vector).sum()`, rotation_matrices.rs:272-275. -/
def sumTranslationsW (l : List TranslationSymbol) : V3 := l.foldl (fun acc s => acc.addW s.vector) V3.zero

/-- `set_translation_from_symbols`, rotation_matrices.rs:266-294. -/
def setTranslationFromSymbolsW (s : MatrixSymbol) (m : M4) : M4 :=
  match s.translationSymbols with
  | some l => { m with tr := m.tr.addW ((sumTranslationsW l).map reduceTranslation) }
  | none => m

/-- `set_inversion`, rotation_matrices.rs:258-264. Simplification: the product with minus the identity is modelled by
nine negations (the other terms of the sums are 0). -/
def setInversionW (m : M4) : M4 := ⟨m.rot.map (fun v => wrap (-v)), m.tr, V3.zero, m.w⟩

/-- `MatrixSymbol::seitz_matrix`, matrices/mod.rs:29-43; `none` is `Err`. -/
def MatrixSymbol.seitzMatrixW (s : MatrixSymbol) : Option M4 :=
  match rotationMatrix s.nfoldBody s.nfoldDiag s.rotationAxis with
  | none => none
  | some rot =>
    match setTransform s rot with
    | none => none
    | some m =>
      let m' := setTranslationFromSymbolsW s m
      if s.minusSign then some (setInversionW m') else some m'

/-- The `seitz_matrix()` of all symbols in turn, src/hall_symbols/mod.rs:65-70. -/
def seitzListW (l : List MatrixSymbol) : Option (List M4) := l.mapM MatrixSymbol.seitzMatrixW

namespace LatticeSymbol

/-- `LatticeSymbol::seitz_matrices`, lattice_symbol/mod.rs:54-69. -/
def seitzMatricesW (l : LatticeSymbol) : List M4 :=
  if l.minusSign then l.translations.flatMap fun v => [M4.identity.addVW v, M4.inversion.addVW v]
  else l.translations.map fun v => M4.identity.addVW v

/-- `translation_minimal_repr`, src/hall_symbols/mod.rs:103-122. -/
def minimalReprW (l : LatticeSymbol) (t : V3) : V3 :=
  (l.translations.map fun tr => (t.addW tr).map positiveMod).foldl minStep (t.map positiveMod)

/-- The closure tested for every lattice translation, src/hall_symbols/mod.rs:144-151. -/
def freshForW (set : List V3) (t tr : V3) : Bool :=
  let u := t.addW tr
  (! set.contains (u.map positiveMod)) && (u.map (fun v => Int.tmod v base)).toList.all (fun v => decide (v ≠ 0))

/-- `add_to_list`, src/hall_symbols/mod.rs:126-166. -/
def addToListW (l : LatticeSymbol) (st : GenState) (m : M4) : Bool × GenState :=
  match st.map.get m.rotationPart with
  | none =>
    let t := l.minimalReprW m.translationPart
    (true, ⟨st.list ++ [m.setTranslationPart t], st.map.set m.rotationPart [t]⟩)
  | some set =>
    if l.translations.all (freshForW set m.translationPart) then
      let t := l.minimalReprW m.translationPart
      if set.contains t then (false, st)
      else (true, ⟨st.list ++ [m.setTranslationPart t], st.map.set m.rotationPart (t :: set)⟩)
    else (false, st)

/-- The inner `for j` loop, src/hall_symbols/mod.rs:185-190. -/
def innerW (l : LatticeSymbol) (i : M4) : List M4 → GenState → GenState
  | [], st => st
  | j :: js, st =>
    match l.addToListW st (i.mulW j) with
    | (true, st') => st'
    | (false, st') => l.innerW i js st'

/-- One pass of the `loop`, src/hall_symbols/mod.rs:183-191. -/
def roundW (l : LatticeSymbol) (st : GenState) : GenState :=
  (st.list.drop 1).foldl (fun acc i => l.innerW i (st.list.drop 1) acc) st

/-- The `loop`, src/hall_symbols/mod.rs:182-197; `none` when `fuel` passes were not enough. -/
def roundsW (l : LatticeSymbol) : Nat → GenState → Option GenState
  | 0, _ => none
  | fuel + 1, st =>
    let st' := l.roundW st
    if st'.list.length > st.list.length then l.roundsW fuel st' else some st

end LatticeSymbol

/-- One entry of the text matrix of `rotation_jf_repr`, seitz_mat_impl.rs:230-245: the product of the letter's code and
the entry wraps. -/
def M4.entryTextW (c : Nat) (val : Int) : Except Panic (List Char) :=
  let v := wrap ((c : Int) * val)
  match M4.charFromU32 v.natAbs with
  | .error e => .error e
  | .ok ch =>
    if v < 0 then .ok ['-', ch] else if v = 0 then .ok ['0'] else .ok ['+', ch]

/-- One row of `rotation_jf_repr`, seitz_mat_impl.rs:248-258. -/
def M4.rowTextW (a b c : Int) : Except Panic (List Char) := do
  let x ← entryTextW 120 a
  let y ← entryTextW 121 b
  let z ← entryTextW 122 c
  return ((x ++ y ++ z).filter (· ≠ '0')).dropWhile (· = '+')

/-- `rotation_jf_repr`, seitz_mat_impl.rs:225-260. -/
def M4.rotationTextsW (m : M4) : Except Panic (List (List Char)) := do
  let r1 ← M4.rowTextW m.rot.m11 m.rot.m12 m.rot.m13
  let r2 ← M4.rowTextW m.rot.m21 m.rot.m22 m.rot.m23
  let r3 ← M4.rowTextW m.rot.m31 m.rot.m32 m.rot.m33
  return [r1, r2, r3]

/-- `jones_faithful_repr_rot`, seitz_mat_impl.rs:261-263. -/
def M4.jonesRotW (m : M4) : Except Panic (List Char) := do
  let rows ← m.rotationTextsW
  return M4.joinWith [','] rows

namespace HallSymbolNotation

/-- `max_equiv_pos` followed by `Vec::with_capacity`, src/hall_symbols/mod.rs:65-70,170: the product of `usize` values
wraps modulo 2^64 (64-bit target); `with_capacity` panics when the bytes (64 per `SeitzMatrix`) exceed `isize::MAX`. -/
def maxEquivPosW (n : HallSymbolNotation) (ms : List M4) : Except Panic Nat := do
  let r ← ms.foldlM (fun acc m => do let k ← m.equivNum; pure ((acc * k) % 18446744073709551616))
    n.latticeSymbol.equivNum
  if r * 64 > maxBytes then .error .capacityOverflow else .ok r

/-- The index the comparator of `sort_general_positions` computes, src/hall_symbols/mod.rs:87-95. -/
def sortKeyW (order : List String) (m : M4) : Except Panic Nat := do
  let text ← m.jonesRotW
  match orderIndex order text with
  | some i => pure i
  | none => .error .orderMismatch

/-- `sort_general_positions`, src/hall_symbols/mod.rs:84-99 (simplification as in `sortGeneralPositions`). -/
def sortGeneralPositionsW (n : HallSymbolNotation) (l : List M4) : Except Panic (List M4) := do
  let order ← n.matriceOrder
  if l.length < 2 then pure l
  else
    let keyed ← l.mapM (fun m => do let k ← sortKeyW order m; pure (k, m))
    pure ((sortByKey keyed).map (·.2))

/-- The list before the `loop`, src/hall_symbols/mod.rs:170-181. -/
def startStateW (n : HallSymbolNotation) (ms : List M4) : GenState :=
  let st0 := n.latticeSymbol.seitzMatricesW.foldl (fun st m => (n.latticeSymbol.addToListW st m).2) ⟨[], []⟩
  ms.foldl (fun st m => (n.latticeSymbol.addToListW st (n.originShift.shiftedMatrixW m)).2) st0

/-- `generate_positions` in a release build, src/hall_symbols/mod.rs:168-199; `none`: still running after `fuel` passes.
Simplification: `trace` of `rotation_type` does not wrap here (its argument comes from the table of
rotation_matrices.rs). -/
def generatePositionsW (n : HallSymbolNotation) (fuel : Nat) : Option (Except Panic (List M4)) :=
  match seitzListW n.matrixSymbols with
  | none => some (.error .invalidSymbol)
  | some ms =>
    match n.maxEquivPosW ms with
    | .error e => some (.error e)
    | .ok _ =>
      match n.latticeSymbol.roundsW fuel (n.startStateW ms) with
      | none => none
      | some st => some (n.sortGeneralPositionsW st.list)

/-- `general_positions` in a release build, src/hall_symbols/mod.rs:200-205. -/
def generalPositionsW (n : HallSymbolNotation) (fuel : Nat) : Option (Except Panic GeneralPositions) :=
  (n.generatePositionsW fuel).map fun r => r.map fun l => ⟨n.latticeSymbol.translations, l⟩

end HallSymbolNotation

/-- `derive_full_sets` in a release build, general_positions.rs:26-31. -/
def GeneralPositions.deriveFullSetsW (g : GeneralPositions) : List (List M4) :=
  g.latticeTranslations.map fun v => g.corePositionSet.map fun m => m.addVW v

end Verif
