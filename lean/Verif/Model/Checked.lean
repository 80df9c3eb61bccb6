import Verif.Model.Positions

/-!
# The same code with 32-bit arithmetic

The other model files read `i32` as `Int`. This file models the arithmetic as a debug build performs it: every sum,
difference, product and negation of `i32` values is checked, and the first result outside the range stops the program
(`none`). Function by function it follows Model/Seitz, Model/Rotations, Model/Generate and Model/Positions; citations of
the Rust source are repeated. Remainders by 12 never overflow.
-/

namespace Verif

/-- The range of `i32`. -/
def I32 (v : Int) : Prop := -2147483648 ≤ v ∧ v ≤ 2147483647

instance (v : Int) : Decidable (I32 v) := inferInstanceAs (Decidable (_ ∧ _))

/-- The result of one `i32` operation whose exact value is `v` in a debug build; `none` is the overflow panic
(Rust language semantics; every `+`, `-`, `*` and unary `-` of /repo/src on `i32`). -/
def chk (v : Int) : Option Int := if I32 v then some v else none

/-- Collect three results. -/
def V3.ofOptions (x y z : Option Int) : Option V3 := do
  let x ← x
  let y ← y
  let z ← z
  return ⟨x, y, z⟩

/-- Collect three rows. -/
def M3.ofOptions (r1 r2 r3 : Option V3) : Option M3 := do
  let a ← r1
  let b ← r2
  let c ← r3
  return ⟨a.x, a.y, a.z, b.x, b.y, b.z, c.x, c.y, c.z⟩

/-- Collect the four blocks. -/
def M4.ofOptions (rot : Option M3) (tr bot : Option V3) (w : Option Int) : Option M4 := do
  let r ← rot
  let t ← tr
  let b ← bot
  let w ← w
  return ⟨r, t, b, w⟩

/-- Vector sum with checked additions (src/hall_symbols/mod.rs:109,146,148; `sum` at rotation_matrices.rs:275). -/
def V3.addC (a b : V3) : Option V3 := V3.ofOptions (chk (a.x + b.x)) (chk (a.y + b.y)) (chk (a.z + b.z))

/-- Vector difference with checked subtractions (seitz_mat_impl.rs:27). -/
def V3.subC (a b : V3) : Option V3 := V3.ofOptions (chk (a.x - b.x)) (chk (a.y - b.y)) (chk (a.z - b.z))

/-- Checked negation of a vector (origin_shift/mod.rs:48). -/
def V3.negC (a : V3) : Option V3 := V3.ofOptions (chk (-a.x)) (chk (-a.y)) (chk (-a.z))

/-- One entry of a 4x4 product: nalgebra (external) accumulates the four products column by column, so each product
and each partial sum is an `i32` (seitz_mat_impl.rs:158,167,345; origin_shift/mod.rs:58). -/
def dot4C (a1 b1 a2 b2 a3 b3 a4 b4 : Int) : Option Int := do
  let p1 ← chk (a1 * b1)
  let p2 ← chk (a2 * b2)
  let s2 ← chk (p1 + p2)
  let p3 ← chk (a3 * b3)
  let s3 ← chk (s2 + p3)
  let p4 ← chk (a4 * b4)
  chk (s3 + p4)

/-- The plain 4x4 product with checked arithmetic, seitz_mat_impl.rs:158,167,345. -/
def M4.mulRawC (a b : M4) : Option M4 :=
  let entry (r : V3 × Int) (c : V3 × Int) := dot4C r.1.x c.1.x r.1.y c.1.y r.1.z c.1.z r.2 c.2
  let r1 : V3 × Int := (⟨a.rot.m11, a.rot.m12, a.rot.m13⟩, a.tr.x)
  let r2 : V3 × Int := (⟨a.rot.m21, a.rot.m22, a.rot.m23⟩, a.tr.y)
  let r3 : V3 × Int := (⟨a.rot.m31, a.rot.m32, a.rot.m33⟩, a.tr.z)
  let r4 : V3 × Int := (a.bot, a.w)
  let c1 : V3 × Int := (⟨b.rot.m11, b.rot.m21, b.rot.m31⟩, b.bot.x)
  let c2 : V3 × Int := (⟨b.rot.m12, b.rot.m22, b.rot.m32⟩, b.bot.y)
  let c3 : V3 × Int := (⟨b.rot.m13, b.rot.m23, b.rot.m33⟩, b.bot.z)
  let c4 : V3 × Int := (b.tr, b.w)
  M4.ofOptions
    (M3.ofOptions (V3.ofOptions (entry r1 c1) (entry r1 c2) (entry r1 c3))
      (V3.ofOptions (entry r2 c1) (entry r2 c2) (entry r2 c3))
      (V3.ofOptions (entry r3 c1) (entry r3 c2) (entry r3 c3)))
    (V3.ofOptions (entry r1 c4) (entry r2 c4) (entry r3 c4))
    (V3.ofOptions (entry r4 c1) (entry r4 c2) (entry r4 c3))
    (entry r4 c4)

/-- `impl Mul for SeitzMatrix`, seitz_mat_impl.rs:340-353. -/
def M4.mulC (a b : M4) : Option M4 := do
  let res ← a.mulRawC b
  return { res with tr := res.tr.map (fun v => Int.tmod v base) }

/-- `impl Add<Vector3<i32>> for SeitzMatrix`, seitz_mat_impl.rs:316-331. -/
def M4.addVC (a : M4) (v : V3) : Option M4 := do
  let t ← a.tr.addC v
  return { a with tr := t.map (fun v => Int.tmod v base) }

/-- `impl PartialEq for SeitzMatrix`, seitz_mat_impl.rs:22-34. -/
def M4.eqvC (a b : M4) : Option Bool :=
  if a.rotationPart = b.rotationPart then do
    let d ← a.translationPart.subC b.translationPart
    return d.toList.all (fun v => Int.tmod v base == 0)
  else some false

/-- The `reduce` of `powi`, seitz_mat_impl.rs:165-168. -/
def M4.powLoopC (m : M4) : Nat → Option M4
  | 0 => some m
  | k + 1 => do
    let p ← powLoopC m k
    p.mulRawC m

/-- `powi` for exponents `≥ 0`, seitz_mat_impl.rs:163-169. -/
def M4.powNatC (m : M4) : Nat → Option M4
  | 0 => some M4.one
  | k + 1 => m.powLoopC k

/-- `OriginShift::shifted_matrix`, origin_shift/mod.rs:47-64. -/
def OriginShift.shiftedMatrixC (s : OriginShift) (m : M4) : Option M4 := do
  let ng ← s.vec.negC
  let mv : M4 := ⟨M3.one, ng, V3.zero, 1⟩
  let mvi : M4 := ⟨M3.one, s.vec, V3.zero, 1⟩
  let p ← mvi.mulRawC m
  let r ← p.mulRawC mv
  return { r with tr := r.tr.map positiveMod, w := positiveMod r.w }

/-- `translations.iter().map(translation_vector).sum()`, rotation_matrices.rs:272-275. -/
def sumTranslationsC (l : List TranslationSymbol) : Option V3 :=
  l.foldlM (fun acc s => acc.addC s.vector) V3.zero

/-- `set_translation_from_symbols`, rotation_matrices.rs:266-294. -/
def setTranslationFromSymbolsC (s : MatrixSymbol) (m : M4) : Option M4 :=
  match s.translationSymbols with
  | some l => do
    let t ← sumTranslationsC l
    let t' ← m.tr.addC (t.map reduceTranslation)
    return { m with tr := t' }
  | none => some m

/-- `set_inversion`, rotation_matrices.rs:258-264. Simplification: the product with minus the identity is modelled by
nine negations (the other terms of the sums are 0). -/
def setInversionC (m : M4) : Option M4 :=
  M4.ofOptions
    (M3.ofOptions (V3.negC ⟨m.rot.m11, m.rot.m12, m.rot.m13⟩) (V3.negC ⟨m.rot.m21, m.rot.m22, m.rot.m23⟩)
      (V3.negC ⟨m.rot.m31, m.rot.m32, m.rot.m33⟩))
    (some m.tr) (some V3.zero) (some m.w)

/-- `MatrixSymbol::seitz_matrix`, matrices/mod.rs:29-43; inner `none` is `Err`, outer `none` an overflow. -/
def MatrixSymbol.seitzMatrixC (s : MatrixSymbol) : Option (Option M4) :=
  match rotationMatrix s.nfoldBody s.nfoldDiag s.rotationAxis with
  | none => some none
  | some rot =>
    match setTransform s rot with
    | none => some none
    | some m => do
      let m' ← setTranslationFromSymbolsC s m
      if s.minusSign then do
        let m'' ← setInversionC m'
        return some m''
      else return some m'

/-- The `seitz_matrix()` of all symbols in turn, src/hall_symbols/mod.rs:65-70: the first `Err` (inner `none`) or
overflow (outer `none`) ends the loop with a panic. -/
def seitzListC : List MatrixSymbol → Option (Option (List M4))
  | [] => some (some [])
  | s :: rest => do
    match ← s.seitzMatrixC with
    | none => return none
    | some m =>
      match ← seitzListC rest with
      | none => return none
      | some ms => return some (m :: ms)

namespace LatticeSymbol

/-- `LatticeSymbol::seitz_matrices`, lattice_symbol/mod.rs:54-69. -/
def seitzMatricesC (l : LatticeSymbol) : Option (List M4) :=
  if l.minusSign then do
    let pairs ← l.translations.mapM fun v => do
      let a ← M4.identity.addVC v
      let b ← M4.inversion.addVC v
      return [a, b]
    return pairs.flatten
  else l.translations.mapM fun v => M4.identity.addVC v

/-- `translation_minimal_repr`, src/hall_symbols/mod.rs:103-122 (the norms are computed in `f64`). -/
def minimalReprC (l : LatticeSymbol) (t : V3) : Option V3 := do
  let cands ← l.translations.mapM fun tr => do
    let u ← t.addC tr
    return u.map positiveMod
  return cands.foldl minStep (t.map positiveMod)

/-- The `all` of src/hall_symbols/mod.rs:144-151, which stops at the first `false`. -/
def allFreshC (set : List V3) (t : V3) : List V3 → Option Bool
  | [] => some true
  | tr :: rest => do
    let u ← t.addC tr
    if (! set.contains (u.map positiveMod)) &&
        (u.map (fun v => Int.tmod v base)).toList.all (fun v => decide (v ≠ 0)) then
      allFreshC set t rest
    else return false

/-- `add_to_list`, src/hall_symbols/mod.rs:126-166. -/
def addToListC (l : LatticeSymbol) (st : GenState) (m : M4) : Option (Bool × GenState) :=
  match st.map.get m.rotationPart with
  | none => do
    let t ← l.minimalReprC m.translationPart
    return (true, ⟨st.list ++ [m.setTranslationPart t], st.map.set m.rotationPart [t]⟩)
  | some set => do
    if ← allFreshC set m.translationPart l.translations then do
      let t ← l.minimalReprC m.translationPart
      if set.contains t then return (false, st)
      else return (true, ⟨st.list ++ [m.setTranslationPart t], st.map.set m.rotationPart (t :: set)⟩)
    else return (false, st)

/-- The inner `for j` loop, src/hall_symbols/mod.rs:185-190. -/
def innerC (l : LatticeSymbol) (i : M4) : List M4 → GenState → Option GenState
  | [], st => some st
  | j :: js, st => do
    let p ← i.mulC j
    match ← l.addToListC st p with
    | (true, st') => return st'
    | (false, st') => innerC l i js st'

/-- One pass of the `loop`, src/hall_symbols/mod.rs:183-191. -/
def roundC (l : LatticeSymbol) (st : GenState) : Option GenState :=
  (st.list.drop 1).foldlM (fun acc i => l.innerC i (st.list.drop 1) acc) st

/-- The `loop`, src/hall_symbols/mod.rs:182-197: outer `none` when `fuel` passes were not enough, inner `none` when a
pass overflowed. -/
def roundsC (l : LatticeSymbol) : Nat → GenState → Option (Option GenState)
  | 0, _ => none
  | fuel + 1, st =>
    match l.roundC st with
    | none => some none
    | some st' => if st'.list.length > st.list.length then l.roundsC fuel st' else some (some st)

end LatticeSymbol

namespace HallSymbolNotation

/-- The list before the `loop`, src/hall_symbols/mod.rs:170-181. -/
def startStateC (n : HallSymbolNotation) (ms : List M4) : Option GenState := do
  let lat ← n.latticeSymbol.seitzMatricesC
  let st0 ← lat.foldlM (fun st m => do let r ← n.latticeSymbol.addToListC st m; return r.2) ⟨[], []⟩
  ms.foldlM (fun st m => do
    let sh ← n.originShift.shiftedMatrixC m
    let r ← n.latticeSymbol.addToListC st sh
    return r.2) st0

/-- The nine products `'x' as i32 * val` of `rotation_jf_repr`, seitz_mat_impl.rs:231-236, do not overflow. -/
def textFits (m : M4) : Bool :=
  [m.rot.m11, m.rot.m21, m.rot.m31].all (fun v => decide (I32 (120 * v))) &&
  [m.rot.m12, m.rot.m22, m.rot.m32].all (fun v => decide (I32 (121 * v))) &&
  [m.rot.m13, m.rot.m23, m.rot.m33].all (fun v => decide (I32 (122 * v)))

/-- `sort_general_positions`, src/hall_symbols/mod.rs:84-99: with at least two elements the texts of all of them are
computed. Simplification: which of several panics comes first is not modelled. -/
def sortGeneralPositionsC (n : HallSymbolNotation) (l : List M4) : Option (Except Panic (List M4)) :=
  if l.length < 2 ∨ l.all textFits then some (n.sortGeneralPositions l) else none

/-- `generate_positions` in a debug build, src/hall_symbols/mod.rs:168-199. Outer `none`: still running after `fuel`
passes; `some none`: stopped by an arithmetic overflow. Simplification: `trace` of `rotation_type` is not checked here
(its argument comes from the table of rotation_matrices.rs). -/
def generatePositionsC (n : HallSymbolNotation) (fuel : Nat) : Option (Option (Except Panic (List M4))) :=
  match seitzListC n.matrixSymbols with
  | none => some none
  | some none => some (some (.error .invalidSymbol))
  | some (some ms) =>
    match n.maxEquivPos ms with
    | .error e => some (some (.error e))
    | .ok _ =>
      match n.startStateC ms with
      | none => some none
      | some st =>
        match n.latticeSymbol.roundsC fuel st with
        | none => none
        | some none => some none
        | some (some st') => some (n.sortGeneralPositionsC st'.list)

/-- `general_positions` in a debug build, src/hall_symbols/mod.rs:200-205. -/
def generalPositionsC (n : HallSymbolNotation) (fuel : Nat) : Option (Option (Except Panic GeneralPositions)) :=
  (n.generatePositionsC fuel).map fun o => o.map fun r => r.map fun l => ⟨n.latticeSymbol.translations, l⟩

end HallSymbolNotation

/-- `derive_full_sets` in a debug build, general_positions.rs:26-31. -/
def GeneralPositions.deriveFullSetsC (g : GeneralPositions) : Option (List (List M4)) :=
  g.latticeTranslations.mapM fun v => g.corePositionSet.mapM fun m => m.addVC v

end Verif
