import Verif.Proofs.Checked
import Verif.Props.Success

/-! # 32-bit arithmetic (C46, C59, C60, C61) -/

namespace Verif

open HallSymbolNotation

/-! ## Sufficient bounds for each function -/

theorem Within.mono {A B v : Int} (h : Within A v) (hAB : A ≤ B) : Within B v := by
  obtain ⟨_, _⟩ := h; constructor <;> omega

theorem dot_within {A B a1 b1 a2 b2 a3 b3 a4 b4 : Int}
    (h1 : Within A a1) (h2 : Within A a2) (h3 : Within A a3) (h4 : Within A a4)
    (k1 : Within B b1) (k2 : Within B b2) (k3 : Within B b3) (k4 : Within B b4) :
    Within (4 * (A * B)) (a1 * b1 + a2 * b2 + a3 * b3 + a4 * b4) := by
  have e1 := mul_bound h1 k1
  have e2 := mul_bound h2 k2
  have e3 := mul_bound h3 k3
  have e4 := mul_bound h4 k4
  generalize A * B = P at *
  constructor <;> omega

theorem M4.mulRaw_within {A B : Int} {a b : M4} (ha : a.Within A) (hb : b.Within B) :
    (a.mulRaw b).Within (4 * (A * B)) := by
  obtain ⟨a1, a2, a3, a4, a5, a6, a7, a8, a9, a10, a11, a12, a13, a14, a15, a16⟩ := ha
  obtain ⟨b1, b2, b3, b4, b5, b6, b7, b8, b9, b10, b11, b12, b13, b14, b15, b16⟩ := hb
  constructor <;> simp only [M4.mulRaw, M3.mul, M3.add, M3.outer, M3.mulVec, V3.add, V3.smul, M3.vecMul, V3.dot]
  case tx => rw [mul_comm b.w]; exact dot_within a1 a2 a3 a10 b10 b11 b12 b16
  case ty => rw [mul_comm b.w]; exact dot_within a4 a5 a6 a11 b10 b11 b12 b16
  case tz => rw [mul_comm b.w]; exact dot_within a7 a8 a9 a12 b10 b11 b12 b16
  all_goals apply dot_within <;> assumption

instance (B v : Int) : Decidable (Within B v) := inferInstanceAs (Decidable (_ ∧ _))

theorem seitzTransform_tr {s : MatrixSymbol} {r c : M4} (hr : r.tr = V3.zero) (h : setTransform s r = some c) :
    Within 10 c.tr.x ∧ Within 10 c.tr.y ∧ Within 10 c.tr.z := by
  unfold setTransform at h
  split at h
  · cases h
  · obtain rfl := Option.some.inj h
    rw [hr]; decide
  · rename_i q hq
    have hq' : 0 ≤ q ∧ q ≤ 10 := by
      revert hq
      generalize s.nfoldBody = f
      generalize s.nfoldSub = u
      cases f <;> cases u <;> simp [screwComponent] <;> omega
    split at h
    · cases h
    · rename_i t ht
      obtain rfl := Option.some.inj h
      simp only
      obtain ⟨_, _⟩ := hq'
      cases hax : s.rotationAxis <;> rw [hax] at ht <;> simp only [axisColumn, Option.some.injEq, reduceCtorEq] at ht <;>
        subst ht <;> refine ⟨⟨?_, ?_⟩, ⟨?_, ?_⟩, ⟨?_, ?_⟩⟩ <;> simp only <;> omega

theorem TranslationSymbol.vector_range (s : TranslationSymbol) :
    (0 ≤ s.vector.x ∧ s.vector.x ≤ 6) ∧ (0 ≤ s.vector.y ∧ s.vector.y ≤ 6) ∧ (0 ≤ s.vector.z ∧ s.vector.z ≤ 6) := by
  cases s <;> decide

theorem sumC_ok (l : List TranslationSymbol) (acc : V3) (K : Nat)
    (h : (0 ≤ acc.x ∧ acc.x ≤ 6 * K) ∧ (0 ≤ acc.y ∧ acc.y ≤ 6 * K) ∧ (0 ≤ acc.z ∧ acc.z ≤ 6 * K))
    (hl : 6 * (K + l.length) ≤ 2147483647) :
    l.foldlM (fun acc s => acc.addC s.vector) acc = some (l.foldl (fun acc s => acc.add s.vector) acc) := by
  induction l generalizing acc K with
  | nil => rfl
  | cons s l ih =>
    obtain ⟨⟨_, _⟩, ⟨_, _⟩, ⟨_, _⟩⟩ := h
    obtain ⟨⟨_, _⟩, ⟨_, _⟩, ⟨_, _⟩⟩ := s.vector_range
    simp only [List.length_cons] at hl
    have e : acc.addC s.vector = some (acc.add s.vector) := by
      rw [V3.addC_eq_some]
      refine ⟨rfl, ⟨?_, ?_⟩, ⟨?_, ?_⟩, ⟨?_, ?_⟩⟩ <;> simp <;> omega
    rw [List.foldlM_cons, e]
    exact ih (acc.add s.vector) (K + 1) (by refine ⟨⟨?_, ?_⟩, ⟨?_, ?_⟩, ⟨?_, ?_⟩⟩ <;> simp <;> omega) (by omega)

theorem reduceTranslation_within (v : Int) : Within 12 (reduceTranslation v) := by
  unfold reduceTranslation
  have := tmod12_bounds v
  simp only [base]
  split
  · split <;> constructor <;> omega
  · constructor <;> omega

theorem rotationMatrix_small {f : NFold} {d : NFoldDiag} {a : RotationAxis} {m : M4}
    (h : rotationMatrix f d a = some m) : m.rot.Small := by
  cases f <;> cases d <;> cases a <;> first
    | (simp [rotationMatrix] at h; done)
    | (simp only [rotationMatrix, Option.some.injEq] at h; subst h; intro v hv; revert v; decide)

/-- The limit on the number of translation letters of one matrix symbol. -/
theorem seitzMatrixC_ok (s : MatrixSymbol) (h : ∀ l, s.translationSymbols = some l → l.length ≤ 357913941) :
    s.seitzMatrixC = some s.seitzMatrix := by
  unfold MatrixSymbol.seitzMatrixC MatrixSymbol.seitzMatrix
  cases hr : rotationMatrix s.nfoldBody s.nfoldDiag s.rotationAxis with
  | none => rfl
  | some r =>
    simp only
    cases hc : setTransform s r with
    | none => rfl
    | some c =>
      simp only
      have h1 : setTranslationFromSymbolsC s c = some (setTranslationFromSymbols s c) := by
        unfold setTranslationFromSymbolsC setTranslationFromSymbols
        cases hl : s.translationSymbols with
        | none => rfl
        | some l =>
          simp only
          have e : sumTranslationsC l = some (sumTranslations l) :=
            sumC_ok l V3.zero 0 (by decide) (by have := h l hl; omega)
          obtain ⟨b1, b2, b3⟩ := seitzTransform_tr (rotationMatrix_facts hr).2.1 hc
          rw [e]
          simp only [Option.bind_eq_bind, Option.bind_some]
          rw [V3.addC_ok (A := 10) (B := 12) (by decide) b1 b2 b3 (reduceTranslation_within _)
            (reduceTranslation_within _) (reduceTranslation_within _)]
          rfl
      rw [h1]
      simp only [Option.bind_eq_bind, Option.bind_some]
      split
      · have h2 : setInversionC (setTranslationFromSymbols s c) = some (setInversion (setTranslationFromSymbols s c)) := by
          have hrot : (setTranslationFromSymbols s c).rot = r.rot := by
            rw [(setTranslation_facts s c).1]
            rcases setTransform_some hc with rfl | ⟨t, rfl⟩ <;> rfl
          have hs := rotationMatrix_small hr
          rw [← hrot] at hs
          generalize setTranslationFromSymbols s c = m at hs
          obtain ⟨⟨m11, m12, m13, m21, m22, m23, m31, m32, m33⟩, t, b, w⟩ := m
          simp only [M3.Small, M3.toList, List.mem_cons, List.not_mem_nil, or_false, forall_eq_or_imp, forall_eq] at hs
          obtain ⟨⟨_, _⟩, ⟨_, _⟩, ⟨_, _⟩, ⟨_, _⟩, ⟨_, _⟩, ⟨_, _⟩, ⟨_, _⟩, ⟨_, _⟩, ⟨_, _⟩⟩ := hs
          simp only [setInversionC, M4.ofOptions_eq_some, M3.ofOptions_eq_some, V3.negC_eq_some, V3.neg,
            V3.I32, I32, setInversion, M3.map, true_and, and_true]
          omega
        rw [h2]; rfl
      · rfl

theorem seitzListC_ok (l : List MatrixSymbol)
    (h : ∀ s ∈ l, ∀ ts, s.translationSymbols = some ts → ts.length ≤ 357913941) :
    seitzListC l = some (l.mapM MatrixSymbol.seitzMatrix) ∨
      (l.mapM MatrixSymbol.seitzMatrix = none ∧ seitzListC l = some none) := by
  induction l with
  | nil => exact .inl rfl
  | cons s l ih =>
    unfold seitzListC
    rw [seitzMatrixC_ok s (h s (List.mem_cons_self ..)), List.mapM_cons]
    cases hs : s.seitzMatrix with
    | none => exact .inl rfl
    | some m =>
      simp only [Option.bind_eq_bind, Option.bind_some]
      rcases ih (fun s' h' => h s' (List.mem_cons_of_mem _ h')) with e | ⟨e1, e2⟩
      · rw [e]
        cases l.mapM MatrixSymbol.seitzMatrix with
        | none => exact .inl rfl
        | some ms => exact .inl rfl
      · rw [e1, e2]; exact .inl rfl

/-- A reduced vector plus a lattice translation. -/
theorem addC_translation {l : LatticeSymbol} {t tr : V3} (ht : Within 12 t.x ∧ Within 12 t.y ∧ Within 12 t.z)
    (htr : tr ∈ l.translations) : t.addC tr = some (t.add tr) := by
  obtain ⟨⟨_, _⟩, ⟨_, _⟩, ⟨_, _⟩⟩ := l.red htr
  exact V3.addC_ok (A := 12) (B := 12) (by decide) ht.1 ht.2.1 ht.2.2 ⟨by omega, by omega⟩ ⟨by omega, by omega⟩
    ⟨by omega, by omega⟩

theorem minimalReprC_ok {l : LatticeSymbol} {t : V3} (ht : Within 12 t.x ∧ Within 12 t.y ∧ Within 12 t.z) :
    l.minimalReprC t = some (l.minimalRepr t) := by
  unfold LatticeSymbol.minimalReprC LatticeSymbol.minimalRepr
  rw [mapM_ok (g := fun tr => (t.add tr).map positiveMod) _ (fun tr htr => by rw [addC_translation ht htr]; rfl)]
  rfl

theorem allFreshC_ok {l : LatticeSymbol} {set : List V3} {t : V3}
    (ht : Within 12 t.x ∧ Within 12 t.y ∧ Within 12 t.z) (trs : List V3) (h : ∀ tr ∈ trs, tr ∈ l.translations) :
    LatticeSymbol.allFreshC set t trs = some (trs.all (freshFor set t)) := by
  induction trs with
  | nil => rfl
  | cons tr rest ih =>
    unfold LatticeSymbol.allFreshC
    rw [addC_translation ht (h tr (List.mem_cons_self ..)), List.all_cons,
      ih (fun tr' h' => h tr' (List.mem_cons_of_mem _ h'))]
    have e : freshFor set t tr = ((! set.contains ((t.add tr).map positiveMod)) &&
      ((t.add tr).map (fun v => Int.tmod v base)).toList.all (fun v => decide (v ≠ 0))) := rfl
    simp only [Option.bind_eq_bind, Option.bind_some]
    rw [← e]
    cases freshFor set t tr <;> rfl

theorem addToListC_ok {l : LatticeSymbol} {st : GenState} {m : M4}
    (ht : Within 12 m.tr.x ∧ Within 12 m.tr.y ∧ Within 12 m.tr.z) : l.addToListC st m = some (l.addToList st m) := by
  unfold LatticeSymbol.addToListC LatticeSymbol.addToList
  cases st.map.get m.rotationPart with
  | none => simp only [minimalReprC_ok (l := l) ht]; rfl
  | some set =>
    simp only [allFreshC_ok (l := l) (set := set) ht _ (fun _ h => h)]
    simp only [Option.bind_eq_bind, Option.bind_some]
    cases l.translations.all (freshFor set m.translationPart) with
    | false => rfl
    | true =>
      simp only [if_true, minimalReprC_ok (l := l) ht, Option.bind_some]
      split <;> rfl

/-- The matrices handled by the loops: affine, small rotation part, reduced translation. -/
structure Tame (m : M4) : Prop where
  affine : m.Affine
  small : m.rot.Small
  x : Within 12 m.tr.x
  y : Within 12 m.tr.y
  z : Within 12 m.tr.z

theorem Tame.within {m : M4} (h : Tame m) : m.Within 12 := by
  obtain ⟨⟨h1, h2⟩, hs, hx, hy, hz⟩ := h
  obtain ⟨⟨m11, m12, m13, m21, m22, m23, m31, m32, m33⟩, t, b, w⟩ := m
  simp only [M3.Small, M3.toList, List.mem_cons, List.not_mem_nil, or_false, forall_eq_or_imp, forall_eq] at hs
  obtain ⟨⟨_, _⟩, ⟨_, _⟩, ⟨_, _⟩, ⟨_, _⟩, ⟨_, _⟩, ⟨_, _⟩, ⟨_, _⟩, ⟨_, _⟩, ⟨_, _⟩⟩ := hs
  simp only at h1 h2
  subst h1 h2
  constructor <;> first | assumption | (constructor <;> simp only <;> omega)

theorem tmod_within (v : V3) : Within 12 (v.map fun x => Int.tmod x base).x ∧
    Within 12 (v.map fun x => Int.tmod x base).y ∧ Within 12 (v.map fun x => Int.tmod x base).z := by
  have h1 := tmod12_bounds v.x
  have h2 := tmod12_bounds v.y
  have h3 := tmod12_bounds v.z
  refine ⟨⟨?_, ?_⟩, ⟨?_, ?_⟩, ⟨?_, ?_⟩⟩ <;> simp only [V3.map, base] <;> omega

theorem innerC_ok {l : LatticeSymbol} {i : M4} (hi : Tame i) {js : List M4} (hj : ∀ j ∈ js, Tame j) (st : GenState) :
    l.innerC i js st = some (l.inner i js st) := by
  induction js generalizing st with
  | nil => rfl
  | cons j js ih =>
    unfold LatticeSymbol.innerC LatticeSymbol.inner
    rw [M4.mulC_ok (A := 12) (B := 12) (by decide) hi.within (hj j (List.mem_cons_self ..)).within]
    simp only [Option.bind_eq_bind, Option.bind_some]
    rw [addToListC_ok (tmod_within _)]
    simp only [Option.bind_some]
    obtain ⟨b, st'⟩ := l.addToList st (i.mul j)
    cases b
    · exact ih (fun j' h' => hj j' (List.mem_cons_of_mem _ h')) st'
    · rfl

theorem roundC_ok {l : LatticeSymbol} {st : GenState} (h : ∀ m ∈ st.list, Tame m) : l.roundC st = some (l.round st) := by
  unfold LatticeSymbol.roundC LatticeSymbol.round
  have hd : ∀ m ∈ st.list.drop 1, Tame m := fun m hm => h m (List.mem_of_mem_drop hm)
  generalize hjs : st.list.drop 1 = js at hd
  suffices ∀ (is : List M4) (st : GenState), (∀ m ∈ is, Tame m) →
      is.foldlM (fun acc i => l.innerC i js acc) st = some (is.foldl (fun acc i => l.inner i js acc) st) from this js st hd
  intro is
  induction is with
  | nil => intro st _; rfl
  | cons i is ih =>
    intro st his
    rw [List.foldlM_cons, innerC_ok (his i (List.mem_cons_self ..)) hd]
    exact ih _ (fun m hm => his m (List.mem_cons_of_mem _ hm))

theorem tame_of_inv {n : HallSymbolNotation} (hs : ∀ r ∈ PointGroup n, r.Small) {st : GenState}
    (hi : Inv n.latticeSymbol (InGroup n) st) : ∀ m ∈ st.list, Tame m := by
  intro m hm
  obtain ⟨⟨_, _⟩, ⟨_, _⟩, ⟨_, _⟩⟩ := hi.red m hm
  exact ⟨hi.affine m hm, hs m.rot ⟨m.act, hi.all m hm, m, rfl, rfl⟩, ⟨by omega, by omega⟩, ⟨by omega, by omega⟩,
    ⟨by omega, by omega⟩⟩

theorem roundsC_ok {n : HallSymbolNotation} (hs : ∀ r ∈ PointGroup n, r.Small) (fuel : Nat) {st : GenState}
    (hi : Inv n.latticeSymbol (InGroup n) st) :
    n.latticeSymbol.roundsC fuel st = (n.latticeSymbol.rounds fuel st).map some := by
  induction fuel generalizing st with
  | zero => rfl
  | succ fuel ih =>
    unfold LatticeSymbol.roundsC LatticeSymbol.rounds
    rw [roundC_ok (tame_of_inv hs hi)]
    simp only
    split
    · exact ih (round_inv (inGroup_latStable n) (inGroup_mulStable n) hi)
    · rfl

theorem seitzMatrix_within {s : MatrixSymbol} {g : M4} (h : s.seitzMatrix = some g) : g.Within 23 := by
  have ha := (seitzMatrix_affine h).1
  obtain ⟨r, c, hr, hc, hg⟩ := seitzMatrix_some h
  have hs := rotationMatrix_small hr
  obtain ⟨b1, b2, b3⟩ := seitzTransform_tr (rotationMatrix_facts hr).2.1 hc
  have hrot : c.rot = r.rot := by rcases setTransform_some hc with rfl | ⟨t, rfl⟩ <;> rfl
  have htr : Within 23 (setTranslationFromSymbols s c).tr.x ∧ Within 23 (setTranslationFromSymbols s c).tr.y ∧
      Within 23 (setTranslationFromSymbols s c).tr.z := by
    unfold setTranslationFromSymbols
    split
    · rename_i l _
      have k1 := reduceTranslation_within (sumTranslations l).x
      have k2 := reduceTranslation_within (sumTranslations l).y
      have k3 := reduceTranslation_within (sumTranslations l).z
      obtain ⟨_, _⟩ := k1; obtain ⟨_, _⟩ := k2; obtain ⟨_, _⟩ := k3
      obtain ⟨_, _⟩ := b1; obtain ⟨_, _⟩ := b2; obtain ⟨_, _⟩ := b3
      refine ⟨⟨?_, ?_⟩, ⟨?_, ?_⟩, ⟨?_, ?_⟩⟩ <;> simp <;> omega
    · exact ⟨b1.mono (by decide), b2.mono (by decide), b3.mono (by decide)⟩
  have hgt : g.tr = (setTranslationFromSymbols s c).tr := by rw [hg]; split <;> rfl
  have hgr : g.rot = r.rot ∨ g.rot = r.rot.map (fun v => -v) := by
    rw [hg]
    split
    · right; simp only [setInversion, (setTranslation_facts s c).1, hrot]
    · left; rw [(setTranslation_facts s c).1, hrot]
  rw [← hgt] at htr
  have hgs : g.rot.Small := by
    rcases hgr with e | e
    · rw [e]; exact hs
    · rw [e]
      generalize r.rot = q at hs
      obtain ⟨m11, m12, m13, m21, m22, m23, m31, m32, m33⟩ := q
      simp only [M3.Small, M3.toList, M3.map, List.mem_cons, List.not_mem_nil, or_false, forall_eq_or_imp, forall_eq] at hs ⊢
      omega
  clear hg hgt hgr h
  obtain ⟨h1, h2⟩ := ha
  obtain ⟨⟨m11, m12, m13, m21, m22, m23, m31, m32, m33⟩, t, b, w⟩ := g
  simp only [M3.Small, M3.toList, List.mem_cons, List.not_mem_nil, or_false, forall_eq_or_imp, forall_eq] at hgs
  obtain ⟨⟨_, _⟩, ⟨_, _⟩, ⟨_, _⟩, ⟨_, _⟩, ⟨_, _⟩, ⟨_, _⟩, ⟨_, _⟩, ⟨_, _⟩, ⟨_, _⟩⟩ := hgs
  obtain ⟨t1, t2, t3⟩ := htr
  simp only at h1 h2
  subst h1 h2
  constructor <;> first | assumption | (constructor <;> simp only <;> omega)

theorem closeComponent_within (v : Int) : Within 23 (OriginShift.closeComponent v) := by
  have := tmod12_bounds v
  unfold OriginShift.closeComponent
  split
  · simp only [base]; constructor <;> omega
  · rename_i h
    rw [not_not] at h
    simp only [base] at h
    constructor <;> omega

theorem shiftedMatrixC_ok (a b c : Int) {m : M4} (hm : m.Within 23) :
    (OriginShift.new a b c).shiftedMatrixC m = some ((OriginShift.new a b c).shiftedMatrix m) := by
  have ha := closeComponent_within a
  have hb := closeComponent_within b
  have hc := closeComponent_within c
  unfold OriginShift.shiftedMatrixC OriginShift.shiftedMatrix OriginShift.new OriginShift.vec
  simp only
  generalize OriginShift.closeComponent a = x at *
  generalize OriginShift.closeComponent b = y at *
  generalize OriginShift.closeComponent c = z at *
  obtain ⟨_, _⟩ := ha; obtain ⟨_, _⟩ := hb; obtain ⟨_, _⟩ := hc
  have e : V3.negC ⟨x, y, z⟩ = some (V3.neg ⟨x, y, z⟩) := by
    rw [V3.negC_eq_some]
    refine ⟨rfl, ⟨?_, ?_⟩, ⟨?_, ?_⟩, ⟨?_, ?_⟩⟩ <;> simp <;> omega
  have w1 : M4.Within 23 ⟨M3.one, ⟨x, y, z⟩, V3.zero, 1⟩ := by
    constructor <;> (constructor <;> simp only [M3.one, V3.zero] <;> omega)
  have w2 : M4.Within 23 ⟨M3.one, V3.neg ⟨x, y, z⟩, V3.zero, 1⟩ := by
    constructor <;> (constructor <;> simp only [V3.neg, M3.one, V3.zero] <;> omega)
  rw [e]
  simp only [Option.bind_eq_bind, Option.bind_some]
  rw [M4.mulRawC_ok (A := 23) (B := 23) (by decide) w1 hm]
  simp only [Option.bind_some]
  rw [M4.mulRawC_ok (A := 4 * (23 * 23)) (B := 23) (by decide) (M4.mulRaw_within w1 hm) w2]
  rfl

theorem offerC_ok {l : LatticeSymbol} {ms : List M4} {st : GenState}
    (h : ∀ m ∈ ms, Within 12 m.tr.x ∧ Within 12 m.tr.y ∧ Within 12 m.tr.z) :
    ms.foldlM (fun st m => do let r ← l.addToListC st m; return r.2) st = some (offer l ms st) := by
  induction ms generalizing st with
  | nil => rfl
  | cons m ms ih =>
    rw [List.foldlM_cons, addToListC_ok (h m (List.mem_cons_self ..))]
    exact ih (fun m' h' => h m' (List.mem_cons_of_mem _ h'))

theorem latticeMatricesC_ok (l : LatticeSymbol) : l.seitzMatricesC = some l.seitzMatrices := by
  obtain ⟨b, c⟩ := l
  cases b <;> cases c <;> decide +kernel

theorem startStateC_ok {n : HallSymbolNotation} {ms : List M4} (hms : n.seitzMatrices = some ms)
    (ho : ∃ a b c, n.originShift = OriginShift.new a b c) : n.startStateC ms = some (n.startState ms) := by
  obtain ⟨a, b, c, ho⟩ := ho
  unfold HallSymbolNotation.startStateC
  rw [latticeMatricesC_ok]
  simp only [Option.bind_eq_bind, Option.bind_some]
  have h0 : List.foldlM (fun st m => do let r ← n.latticeSymbol.addToListC st m; return r.2) ⟨[], []⟩
      n.latticeSymbol.seitzMatrices = some (offer n.latticeSymbol n.latticeSymbol.seitzMatrices ⟨[], []⟩) := by
    refine offerC_ok (fun m hm => ?_)
    have : ∃ b : M4, ∃ v, m = b.addV v := by
      unfold LatticeSymbol.seitzMatrices at hm
      split at hm
      · obtain ⟨v, _, hm⟩ := List.mem_flatMap.1 hm
        simp only [List.mem_cons, List.not_mem_nil, or_false] at hm
        rcases hm with rfl | rfl <;> exact ⟨_, _, rfl⟩
      · obtain ⟨v, _, rfl⟩ := List.mem_map.1 hm
        exact ⟨_, _, rfl⟩
    obtain ⟨b, v, rfl⟩ := this
    exact tmod_within _
  rw [startState_eq]
  refine Eq.trans (congrArg (fun o => Option.bind o _) h0) ?_
  simp only [Option.bind_some]
  generalize offer n.latticeSymbol n.latticeSymbol.seitzMatrices ⟨[], []⟩ = st
  have hw : ∀ m ∈ ms, m.Within 23 := by
    intro m hm
    obtain ⟨s, _, e⟩ := (seitzMatrices_mem hms).1 m hm
    exact seitzMatrix_within e
  clear h0 hms
  induction ms generalizing st with
  | nil => rfl
  | cons m ms ih =>
    rw [List.foldlM_cons, ho, shiftedMatrixC_ok a b c (hw m (List.mem_cons_self ..)), ← ho]
    simp only [Option.bind_eq_bind, Option.bind_some]
    rw [addToListC_ok]
    · simp only [Option.bind_some]
      exact ih _ (fun m' h' => hw m' (List.mem_cons_of_mem _ h'))
    · have h1 := positiveMod_range' ((n.originShift.shiftedMatrix m).tr.x)
      have key : ∀ v : V3, Within 12 (v.map positiveMod).x ∧ Within 12 (v.map positiveMod).y ∧
          Within 12 (v.map positiveMod).z := by
        intro v
        have h1 := positiveMod_range' v.x
        have h2 := positiveMod_range' v.y
        have h3 := positiveMod_range' v.z
        refine ⟨⟨?_, ?_⟩, ⟨?_, ?_⟩, ⟨?_, ?_⟩⟩ <;> simp only [V3.map] <;> omega
      exact key _

theorem small_textFits {m : M4} (h : m.rot.Small) : textFits m = true := by
  obtain ⟨⟨m11, m12, m13, m21, m22, m23, m31, m32, m33⟩, t, b, w⟩ := m
  simp only [M3.Small, M3.toList, List.mem_cons, List.not_mem_nil, or_false, forall_eq_or_imp, forall_eq] at h
  obtain ⟨⟨_, _⟩, ⟨_, _⟩, ⟨_, _⟩, ⟨_, _⟩, ⟨_, _⟩, ⟨_, _⟩, ⟨_, _⟩, ⟨_, _⟩, ⟨_, _⟩⟩ := h
  simp only [textFits, List.all_cons, List.all_nil, Bool.and_true, Bool.and_eq_true, decide_eq_true_eq]
  simp only [I32]
  omega

/-! ## Property theorems -/

/-- All generators of the notation are symmetries of one cell: cubic or hexagonal. -/
def OneHolohedry (n : HallSymbolNotation) : Prop :=
  (∀ s ∈ n.matrixSymbols, ∀ m, s.seitzMatrix = some m → m.rot.Cubic) ∨
  (∀ s ∈ n.matrixSymbols, ∀ m, s.seitzMatrix = some m → m.rot.Hexagonal)

theorem oneHolohedry_small {n : HallSymbolNotation} (h : OneHolohedry n) : ∀ r ∈ PointGroup n, r.Small := by
  intro r hr
  rcases h with h | h
  · have := pointGroup_subset (n := n) (S := {r | r ∈ cubicList})
      ⟨List.finite_toSet _, by change M3.one ∈ cubicList; decide +kernel, fun a ha b hb =>
        (cubic_iff_mem _).1 (((cubic_iff_mem a).2 ha).mul ((cubic_iff_mem b).2 hb))⟩
      (fun _ => by change _ ∈ cubicList; decide +kernel) (fun s hs g hg => (cubic_iff_mem _).1 (h s hs g hg)) hr
    exact holohedry_small r (.inl ((cubic_iff_mem r).2 this))
  · have := pointGroup_subset (n := n) (S := {r | r ∈ hexList})
      ⟨List.finite_toSet _, by change M3.one ∈ hexList; decide +kernel, fun a ha b hb =>
        (hexagonal_iff_mem _).1 (((hexagonal_iff_mem a).2 ha).mul ((hexagonal_iff_mem b).2 hb))⟩
      (fun _ => by change _ ∈ hexList; decide +kernel) (fun s hs g hg => (hexagonal_iff_mem _).1 (h s hs g hg)) hr
    exact holohedry_small r (.inr ((hexagonal_iff_mem r).2 this))

/-- C46. When all generators are symmetries of one cubic or hexagonal cell, no matrix symbol has more than 357913941
translation letters, and the origin shift was made by `OriginShift::new`, the arithmetic of `general_positions` never
leaves the range of `i32`: for every number of rounds the checked run is the run with unbounded integers. -/
theorem no_overflow (n : HallSymbolNotation) (h : OneHolohedry n)
    (hl : ∀ s ∈ n.matrixSymbols, ∀ ts, s.translationSymbols = some ts → ts.length ≤ 357913941)
    (ho : ∃ a b c, n.originShift = OriginShift.new a b c) (rounds : Nat) :
    n.generalPositionsC rounds = (n.generalPositions rounds).map some := by
  have hs := oneHolohedry_small h
  suffices n.generatePositionsC rounds = (n.generatePositions rounds).map some by
    unfold HallSymbolNotation.generalPositionsC HallSymbolNotation.generalPositions
    rw [this]
    cases n.generatePositions rounds <;> rfl
  unfold HallSymbolNotation.generatePositionsC HallSymbolNotation.generatePositions
  have e : seitzListC n.matrixSymbols = some n.seitzMatrices := by
    rcases seitzListC_ok n.matrixSymbols hl with e | ⟨e1, e2⟩
    · exact e
    · rw [e2]; exact congrArg some e1.symm
  rw [e]
  cases hms : n.seitzMatrices with
  | none => rfl
  | some ms =>
    simp only
    cases n.maxEquivPos ms with
    | error e => rfl
    | ok k =>
      simp only [startStateC_ok hms ho, roundsC_ok hs rounds (start_inv hms).1]
      cases hr : n.latticeSymbol.rounds rounds (n.startState ms) with
      | none => rfl
      | some st =>
        simp only [Option.map_some]
        have hi := (rounds_inv (inGroup_latStable n) (inGroup_mulStable n) rounds (start_inv hms).1 hr).1
        have ht : st.list.all textFits = true :=
          List.all_eq_true.2 (fun m hm => small_textFits (tame_of_inv hs hi m hm).small)
        unfold HallSymbolNotation.sortGeneralPositionsC
        rw [if_pos (.inr ht)]

/-- The example of the other files: `-C 2c 2`. -/
example : OneHolohedry sampleN ∧ (∃ a b c, sampleN.originShift = OriginShift.new a b c) ∧
    sampleN.generalPositionsC 10 = some (some (.ok sampleG)) := by
  refine ⟨.inl ?_, ⟨0, 0, 0, by decide +kernel⟩, by decide +kernel⟩
  have : ∀ s ∈ sampleN.matrixSymbols, ∀ m ∈ s.seitzMatrix, m.rot ∈ cubicList := by decide +kernel
  intro s hs m hm
  exact (cubic_iff_mem _).2 (this s hs m hm)

/-- The limit on the letters is sharp: a sum of one letter more overflows. -/
theorem letters_overflow (k : Nat) :
    (∃ v, sumTranslationsC (List.replicate k .A) = some v) ↔ k ≤ 357913941 := by
  have key : ∀ k (a : Int), 0 ≤ a →
      ((∃ v, (List.replicate k TranslationSymbol.A).foldlM (fun (acc : V3) s => acc.addC s.vector) (⟨a, 0, 0⟩ : V3) = some v) ↔
        (k = 0 ∨ a + 6 * k ≤ 2147483647)) := by
    intro k
    induction k with
    | zero => intro a _; simp
    | succ k ih =>
      intro a ha
      rw [List.replicate_succ, List.foldlM_cons]
      by_cases h : a + 6 ≤ 2147483647
      · have e : V3.addC ⟨a, 0, 0⟩ TranslationSymbol.A.vector = some ⟨a + 6, 0, 0⟩ := by
          rw [V3.addC_eq_some]
          refine ⟨rfl, ⟨?_, ?_⟩, ⟨?_, ?_⟩, ⟨?_, ?_⟩⟩ <;> simp <;> omega
        rw [e]
        simp only [Option.bind_eq_bind, Option.bind_some]
        rw [ih (a + 6) (by omega)]
        constructor
        · rintro (rfl | h') <;> right
          · omega
          · omega
        · rintro (h' | h')
          · omega
          · right; omega
      · have e : V3.addC ⟨a, 0, 0⟩ TranslationSymbol.A.vector = none := by
          cases hv : V3.addC ⟨a, 0, 0⟩ TranslationSymbol.A.vector with
          | none => rfl
          | some v =>
            exfalso
            obtain ⟨rfl, ⟨_, h2⟩, _⟩ := V3.addC_eq_some.1 hv
            simp [V3.add, TranslationSymbol.vector] at h2
            omega
        rw [e]
        simp only [Option.bind_eq_bind, Option.bind_none, reduceCtorEq, exists_false, false_iff]
        rintro (h' | h') <;> omega
  have := key k 0 (by omega)
  unfold sumTranslationsC
  refine this.trans ?_
  omega

/-- C59. Whatever a debug build returns from `general_positions` is what exact integer arithmetic gives: overflow can
only stop the program, never change its answer. With C31-C34 this makes every returned answer correct. -/
theorem debug_answer_exact {n : HallSymbolNotation} {rounds : Nat} {r : Except Panic GeneralPositions}
    (h : n.generalPositionsC rounds = some (some r)) : n.generalPositions rounds = some r := by
  unfold HallSymbolNotation.generalPositionsC at h
  unfold HallSymbolNotation.generalPositions
  suffices ∀ r, n.generatePositionsC rounds = some (some r) → n.generatePositions rounds = some r by
    cases hg : n.generatePositionsC rounds with
    | none => rw [hg] at h; cases h
    | some o =>
      rw [hg] at h
      cases o with
      | none => cases h
      | some r' =>
        rw [this r' hg]
        simp only [Option.map_some, Option.some.injEq] at h ⊢
        exact h
  intro r h
  unfold HallSymbolNotation.generatePositionsC at h
  unfold HallSymbolNotation.generatePositions
  cases hl : seitzListC n.matrixSymbols with
  | none => rw [hl] at h; cases h
  | some o =>
    have e : o = n.seitzMatrices := seitzListC_sound hl
    rw [hl] at h
    rw [← e]
    cases o with
    | none => simp only [Option.some.injEq] at h ⊢; exact h
    | some ms =>
      simp only at h ⊢
      cases hc : n.maxEquivPos ms with
      | error e => rw [hc] at h; simp only [Option.some.injEq] at h ⊢; exact h
      | ok k =>
        rw [hc] at h
        simp only at h ⊢
        cases hst : n.startStateC ms with
        | none => rw [hst] at h; cases h
        | some st =>
          rw [hst] at h
          rw [← (startStateC_sound hst).1]
          simp only at h
          cases hr : n.latticeSymbol.roundsC rounds st with
          | none => rw [hr] at h; cases h
          | some o =>
            rw [hr] at h
            cases o with
            | none => cases h
            | some st' =>
              rw [roundsC_sound hr]
              simp only [Option.some.injEq] at h ⊢
              unfold HallSymbolNotation.sortGeneralPositionsC at h
              split at h
              · exact Option.some.inj h
              · cases h

example : ∃ r, sampleN.generalPositionsC 10 = some (some r) := ⟨.ok sampleG, by decide +kernel⟩

/-! ## Termination -/

theorem i32_finite : {r : M3 | r.I32}.Finite := by
  have hI : (Set.Icc (-2147483648 : Int) 2147483647).Finite := Set.finite_Icc _ _
  have h3 := hI.prod (hI.prod hI)
  have h9 := h3.prod (h3.prod h3)
  refine Set.Finite.subset (h9.image (fun p => (⟨p.1.1, p.1.2.1, p.1.2.2, p.2.1.1, p.2.1.2.1, p.2.1.2.2, p.2.2.1,
    p.2.2.2.1, p.2.2.2.2⟩ : M3))) ?_
  rintro ⟨a, b, c, d, e, f, g, h, i⟩ hr
  simp only [M3.I32, Set.mem_ofPred_eq, M3.toList, List.mem_cons, List.not_mem_nil, or_false, forall_eq_or_imp,
    forall_eq, I32] at hr
  refine ⟨((a, b, c), (d, e, f), (g, h, i)), ?_, rfl⟩
  simp only [Set.mem_prod, Set.mem_Icc]
  omega

/-- A bound on the length of the list of a checked run. -/
theorem exists_i32_bound : ∃ B, ∀ (n : HallSymbolNotation) st, Inv n.latticeSymbol (InGroup n) st → ListI32 st →
    st.list.length ≤ B := by
  have hfin := i32_finite.prod red_finite
  refine ⟨({r : M3 | r.I32} ×ˢ {v : V3 | v.Red}).ncard, fun n st hi hs => ?_⟩
  have hnd : (st.list.map (fun m => (m.rot, m.tr))).Nodup := by
    unfold List.Nodup
    rw [List.pairwise_map]
    apply hi.distinct.imp
    intro a b hne heq
    simp only [Prod.mk.injEq] at heq
    exact hne ⟨heq.1, by rw [heq.2]; exact .refl _ _⟩
  rw [← List.length_map (f := fun m : M4 => (m.rot, m.tr)), ← List.toFinset_card_of_nodup hnd, ← Set.ncard_coe_finset]
  apply Set.ncard_le_ncard _ hfin
  intro p hp
  simp only [List.coe_toFinset, List.mem_map, Set.mem_ofPred_eq] at hp
  obtain ⟨m, hm, rfl⟩ := hp
  exact ⟨hs m hm, hi.red m hm⟩

theorem roundsC_terminates {n : HallSymbolNotation} {B : Nat}
    (hB : ∀ (n : HallSymbolNotation) st, Inv n.latticeSymbol (InGroup n) st → ListI32 st → st.list.length ≤ B) (k : Nat)
    (st : GenState) (hi : Inv n.latticeSymbol (InGroup n) st) (hs : ListI32 st) (hk : B + 1 ≤ st.list.length + k) :
    n.latticeSymbol.roundsC k st ≠ none := by
  induction k generalizing st with
  | zero => have := hB n st hi hs; omega
  | succ k ih =>
    unfold LatticeSymbol.roundsC
    split
    · simp
    · rename_i st' e
      obtain ⟨e1, e2⟩ := roundC_sound e
      split
      · rename_i hlt
        exact ih st' (by rw [e1]; exact round_inv (inGroup_latStable n) (inGroup_mulStable n) hi) (e2 hs) (by omega)
      · simp

/-- C60. In a debug build `general_positions` ends on every notation, whatever its matrix symbols generate: there is one
number of rounds, the same for all notations, after which the run has returned, panicked or been stopped by an overflow. -/
theorem debug_run_ends : ∃ rounds, ∀ n : HallSymbolNotation, n.generalPositionsC rounds ≠ none := by
  obtain ⟨B, hB⟩ := exists_i32_bound
  refine ⟨B + 1, fun n h => ?_⟩
  unfold HallSymbolNotation.generalPositionsC at h
  rw [Option.map_eq_none_iff] at h
  unfold HallSymbolNotation.generatePositionsC at h
  split at h
  · cases h
  · cases h
  · rename_i ms hl
    have hms : n.seitzMatrices = some ms := (seitzListC_sound hl).symm
    split at h
    · cases h
    · split at h
      · cases h
      · rename_i st hst
        obtain ⟨rfl, hI⟩ := startStateC_sound hst
        split at h
        · rename_i hr
          exact roundsC_terminates hB (B + 1) _ (start_inv hms).1 hI (by omega) hr
        · cases h
        · cases h

/-- C60. If exact arithmetic would never stop (by C37: the rotations of the group are infinitely many), the debug build is
stopped by an overflow. -/
theorem endless_run_overflows {n : HallSymbolNotation} (h : ∀ rounds, n.generalPositions rounds = none) :
    ∃ rounds, n.generalPositionsC rounds = some none := by
  obtain ⟨k, hk⟩ := debug_run_ends
  refine ⟨k, ?_⟩
  cases e : n.generalPositionsC k with
  | none => exact absurd e (hk n)
  | some o =>
    cases o with
    | none => rfl
    | some r =>
      have := debug_answer_exact e
      rw [h k] at this
      cases this

example : ∃ rounds, (hall "P 6 4").generalPositionsC rounds = some none :=
  endless_run_overflows generation_diverges.2

/-! ## Single operations -/

theorem powLoopC_sound {m r : M4} {k : Nat} (h : m.powLoopC k = some r) : r = m.powLoop k := by
  induction k generalizing r with
  | zero => exact (Option.some.inj h).symm
  | succ k ih =>
    simp only [M4.powLoopC, Option.bind_eq_bind, Option.bind_eq_some_iff] at h
    obtain ⟨p, h1, h2⟩ := h
    rw [ih h1] at h2
    exact (M4.mulRawC_sound h2).1

/-- C61. What `*`, `+`, `==` and `powi` return in a debug build is the exact result. -/
theorem operations_exact (a b : M4) (v : V3) (k : Nat) :
    (∀ c, a.mulC b = some c → c = a.mul b) ∧ (∀ c, a.addVC v = some c → c = a.addV v) ∧
    (∀ c, a.eqvC b = some c → c = a.eqv b) ∧ (∀ c, a.powNatC k = some c → c = a.powNat k) := by
  refine ⟨fun c h => (M4.mulC_sound h).1, fun c h => M4.addVC_sound h, fun c h => ?_, fun c h => ?_⟩
  · unfold M4.eqvC at h
    unfold M4.eqv
    split at h
    · rename_i e
      rw [if_pos e]
      simp only [Option.bind_eq_bind, Option.bind_eq_some_iff, V3.subC_eq_some] at h
      obtain ⟨_, ⟨rfl, _⟩, e'⟩ := h
      exact (Option.some.inj e').symm
    · rename_i e
      rw [if_neg e]
      exact (Option.some.inj h).symm
  · cases k with
    | zero => exact (Option.some.inj h).symm
    | succ k => exact powLoopC_sound h

/-- All sixteen entries have absolute value at most `B`. -/
def EntriesAtMost (B : Int) (m : M4) : Prop := ∀ v ∈ m.hashData, -B ≤ v ∧ v ≤ B

theorem EntriesAtMost.within {B : Int} {m : M4} (h : EntriesAtMost B m) : m.Within B := by
  simp only [EntriesAtMost, M4.hashData, List.mem_cons, List.not_mem_nil, or_false, forall_eq_or_imp, forall_eq] at h
  obtain ⟨h1, h2, h3, h4, h5, h6, h7, h8, h9, h10, h11, h12, h13, h14, h15, h16⟩ := h
  constructor <;> assumption

/-- C61. `*` does not overflow on matrices with entries up to 23170, `==` up to 1073741823. -/
theorem operations_no_overflow (a b : M4) :
    (EntriesAtMost 23170 a → EntriesAtMost 23170 b → a.mulC b = some (a.mul b)) ∧
    (EntriesAtMost 1073741823 a → EntriesAtMost 1073741823 b → a.eqvC b = some (a.eqv b)) := by
  refine ⟨fun ha hb => M4.mulC_ok (by decide) ha.within hb.within, fun ha hb => ?_⟩
  obtain ⟨_, _, _, _, _, _, _, _, _, ⟨_, _⟩, ⟨_, _⟩, ⟨_, _⟩, _, _, _, _⟩ := ha.within
  obtain ⟨_, _, _, _, _, _, _, _, _, ⟨_, _⟩, ⟨_, _⟩, ⟨_, _⟩, _, _, _, _⟩ := hb.within
  unfold M4.eqvC M4.eqv
  split
  · rename_i e
    have e' : a.translationPart.subC b.translationPart = some (a.translationPart.sub b.translationPart) := by
      rw [V3.subC_eq_some]
      refine ⟨rfl, ⟨?_, ?_⟩, ⟨?_, ?_⟩, ⟨?_, ?_⟩⟩ <;> simp [M4.translationPart] <;> omega
    rw [e']; rfl
  · rfl

example : EntriesAtMost 23170 M4.inversion ∧ EntriesAtMost 1073741823 M4.inversion :=
  ⟨by unfold EntriesAtMost; decide, by unfold EntriesAtMost; decide⟩

/-- C61. The operations can overflow: a comparison of two matrices of `i32`, and the second power of one. -/
theorem operations_can_overflow :
    M4.eqvC ⟨M3.one, ⟨2147483647, 0, 0⟩, V3.zero, 1⟩ ⟨M3.one, ⟨-1, 0, 0⟩, V3.zero, 1⟩ = none ∧
    M4.powNatC ⟨M3.one, ⟨1073741824, 0, 0⟩, V3.zero, 1⟩ 2 = none := by decide

/-- C61. The lattice-translated sets of returned positions never overflow. -/
theorem full_sets_no_overflow {n : HallSymbolNotation} {g : GeneralPositions} (h : HasPositions n g) :
    g.deriveFullSetsC = some g.deriveFullSets := by
  obtain ⟨k, h⟩ := h
  obtain ⟨st, hF, hp, hl⟩ := final_of_ok h
  unfold GeneralPositions.deriveFullSetsC GeneralPositions.deriveFullSets
  refine mapM_ok _ (fun v hv => mapM_ok _ (fun m hm => ?_))
  rw [hl] at hv
  obtain ⟨⟨_, _⟩, ⟨_, _⟩, ⟨_, _⟩⟩ := hF.inv.red m (hp.mem_iff.1 hm)
  unfold M4.addVC
  rw [addC_translation (l := n.latticeSymbol) ⟨⟨by omega, by omega⟩, ⟨by omega, by omega⟩, ⟨by omega, by omega⟩⟩ hv]
  rfl

example : sampleG.deriveFullSetsC = some sampleG.deriveFullSets := full_sets_no_overflow sample_positions

end Verif
