import Verif.Model.Wrapped
import Verif.Props.Overflow

/-! # Wrapping arithmetic: each function against the checked one -/

namespace Verif

open HallSymbolNotation

theorem wrap_of_I32 {v : Int} (h : I32 v) : wrap v = v := by
  obtain ⟨_, _⟩ := h
  unfold wrap
  omega

theorem wrap_I32 (v : Int) : I32 (wrap v) := by
  unfold wrap I32
  omega

theorem chk_wrap {v w : Int} (h : chk v = some w) : wrap v = w := by
  obtain ⟨rfl, h⟩ := chk_eq_some.1 h
  exact wrap_of_I32 h

theorem V3.ofOptions_chk {x y z : Int} {v : V3} (h : V3.ofOptions (chk x) (chk y) (chk z) = some v) :
    (⟨wrap x, wrap y, wrap z⟩ : V3) = v := by
  rw [V3.ofOptions_eq_some] at h
  obtain ⟨h1, h2, h3⟩ := h
  rw [chk_wrap h1, chk_wrap h2, chk_wrap h3]

theorem V3.addC_W {a b v : V3} (h : a.addC b = some v) : a.addW b = v := V3.ofOptions_chk h
theorem V3.subC_W {a b v : V3} (h : a.subC b = some v) : a.subW b = v := V3.ofOptions_chk h
theorem V3.negC_W {a v : V3} (h : a.negC = some v) : a.negW = v := V3.ofOptions_chk h

theorem dot4C_W {a1 b1 a2 b2 a3 b3 a4 b4 v : Int} (h : dot4C a1 b1 a2 b2 a3 b3 a4 b4 = some v) :
    dot4W a1 b1 a2 b2 a3 b3 a4 b4 = v := by
  simp only [dot4C, Option.bind_eq_bind, Option.bind_eq_some_iff] at h
  obtain ⟨p1, h1, p2, h2, s2, h3, p3, h4, s3, h5, p4, h6, h7⟩ := h
  unfold dot4W
  simp only
  rw [chk_wrap h1, chk_wrap h2, chk_wrap h3, chk_wrap h4, chk_wrap h5, chk_wrap h6, chk_wrap h7]

theorem dot4W_I32 (a1 b1 a2 b2 a3 b3 a4 b4 : Int) : I32 (dot4W a1 b1 a2 b2 a3 b3 a4 b4) := wrap_I32 _

theorem M4.mulRawC_W {a b m : M4} (h : a.mulRawC b = some m) : a.mulRawW b = m := by
  simp only [M4.mulRawC, M4.ofOptions_eq_some, M3.ofOptions_eq_some, V3.ofOptions_eq_some] at h
  obtain ⟨⟨⟨h1, h2, h3⟩, ⟨h4, h5, h6⟩, h7, h8, h9⟩, ⟨h10, h11, h12⟩, ⟨h13, h14, h15⟩, h16⟩ := h
  obtain ⟨⟨_, _, _, _, _, _, _, _, _⟩, ⟨_, _, _⟩, ⟨_, _, _⟩, _⟩ := m
  simp only [M4.mulRawW, M4.mk.injEq, M3.mk.injEq, V3.mk.injEq]
  exact ⟨⟨dot4C_W h1, dot4C_W h2, dot4C_W h3, dot4C_W h4, dot4C_W h5, dot4C_W h6, dot4C_W h7, dot4C_W h8, dot4C_W h9⟩,
    ⟨dot4C_W h10, dot4C_W h11, dot4C_W h12⟩, ⟨dot4C_W h13, dot4C_W h14, dot4C_W h15⟩, dot4C_W h16⟩

theorem M4.mulC_W {a b m : M4} (h : a.mulC b = some m) : a.mulW b = m := by
  simp only [M4.mulC, Option.bind_eq_bind, Option.bind_eq_some_iff] at h
  obtain ⟨r, h1, h2⟩ := h
  unfold M4.mulW
  rw [M4.mulRawC_W h1]
  exact Option.some.inj h2

theorem M4.addVC_W {a m : M4} {v : V3} (h : a.addVC v = some m) : a.addVW v = m := by
  simp only [M4.addVC, Option.bind_eq_bind, Option.bind_eq_some_iff] at h
  obtain ⟨r, h1, h2⟩ := h
  unfold M4.addVW
  rw [V3.addC_W h1]
  exact Option.some.inj h2

theorem M4.eqvC_W {a b : M4} {r : Bool} (h : a.eqvC b = some r) : a.eqvW b = r := by
  unfold M4.eqvC at h
  unfold M4.eqvW
  split at h
  · rename_i e
    rw [if_pos e]
    simp only [Option.bind_eq_bind, Option.bind_eq_some_iff] at h
    obtain ⟨d, h1, h2⟩ := h
    rw [V3.subC_W h1]
    exact Option.some.inj h2
  · rename_i e
    rw [if_neg e]
    exact Option.some.inj h

theorem M4.powLoopC_W {m r : M4} {k : Nat} (h : m.powLoopC k = some r) : m.powLoopW k = r := by
  induction k generalizing r with
  | zero => exact Option.some.inj h
  | succ k ih =>
    simp only [M4.powLoopC, Option.bind_eq_bind, Option.bind_eq_some_iff] at h
    obtain ⟨p, h1, h2⟩ := h
    unfold M4.powLoopW
    rw [ih h1]
    exact M4.mulRawC_W h2

theorem M4.powNatC_W {m r : M4} {k : Nat} (h : m.powNatC k = some r) : m.powNatW k = r := by
  cases k with
  | zero => exact Option.some.inj h
  | succ k => exact M4.powLoopC_W h

theorem shiftedMatrixC_W {s : OriginShift} {m r : M4} (h : s.shiftedMatrixC m = some r) : s.shiftedMatrixW m = r := by
  simp only [OriginShift.shiftedMatrixC, Option.bind_eq_bind, Option.bind_eq_some_iff] at h
  obtain ⟨ng, h1, p, h2, q, h3, h4⟩ := h
  unfold OriginShift.shiftedMatrixW
  simp only
  rw [V3.negC_W h1, M4.mulRawC_W h2, M4.mulRawC_W h3]
  exact Option.some.inj h4

theorem foldlM_W {α β : Type} {f : β → α → Option β} {g : β → α → β} (h : ∀ b a c, f b a = some c → g b a = c)
    {l : List α} {b c : β} (e : l.foldlM f b = some c) : l.foldl g b = c :=
  (foldlM_sound (fun b a c h' => (h b a c h').symm) l b c e).symm

theorem mapM_W {α β : Type} {f : α → Option β} {g : α → β} {l : List α} (h : ∀ a c, f a = some c → g a = c)
    {r : List β} (e : l.mapM f = some r) : l.map g = r :=
  (mapM_sound l (fun a _ c h' => (h a c h').symm) r e).symm

theorem sumTranslationsC_W {l : List TranslationSymbol} {v : V3} (h : sumTranslationsC l = some v) :
    sumTranslationsW l = v :=
  foldlM_W (fun _ _ _ e => V3.addC_W e) h

theorem setTranslationFromSymbolsC_W {s : MatrixSymbol} {m r : M4} (h : setTranslationFromSymbolsC s m = some r) :
    setTranslationFromSymbolsW s m = r := by
  unfold setTranslationFromSymbolsC at h
  unfold setTranslationFromSymbolsW
  split at h
  · rename_i l e
    simp only [Option.bind_eq_bind, Option.bind_eq_some_iff] at h
    obtain ⟨t, h1, t', h2, h3⟩ := h
    rw [e]
    simp only
    rw [sumTranslationsC_W h1, V3.addC_W h2]
    exact Option.some.inj h3
  · rename_i e
    rw [e]
    exact Option.some.inj h

theorem setInversionC_W {m r : M4} (h : setInversionC m = some r) : setInversionW m = r := by
  simp only [setInversionC, M4.ofOptions_eq_some, M3.ofOptions_eq_some, V3.negC_eq_some, V3.neg, V3.mk.injEq,
    Option.some.injEq, V3.I32] at h
  obtain ⟨⟨⟨⟨h1, h2, h3⟩, i1, i2, i3⟩, ⟨⟨h4, h5, h6⟩, i4, i5, i6⟩, ⟨h7, h8, h9⟩, i7, i8, i9⟩, h10, h11, h12⟩ := h
  obtain ⟨⟨_, _, _, _, _, _, _, _, _⟩, _, _, _⟩ := r
  simp only at *
  subst h1 h2 h3 h4 h5 h6 h7 h8 h9 h10 h11 h12
  simp only [setInversionW, M3.map, wrap_of_I32 i1, wrap_of_I32 i2, wrap_of_I32 i3, wrap_of_I32 i4, wrap_of_I32 i5,
    wrap_of_I32 i6, wrap_of_I32 i7, wrap_of_I32 i8, wrap_of_I32 i9]

theorem seitzMatrixC_W {s : MatrixSymbol} {r : Option M4} (h : s.seitzMatrixC = some r) : s.seitzMatrixW = r := by
  unfold MatrixSymbol.seitzMatrixC at h
  unfold MatrixSymbol.seitzMatrixW
  split at h
  · rename_i e; rw [e]; exact Option.some.inj h
  · rename_i rot e
    rw [e]
    simp only
    split at h
    · rename_i e; rw [e]; exact Option.some.inj h
    · rename_i m e
      rw [e]
      simp only [Option.bind_eq_bind, Option.bind_eq_some_iff] at h ⊢
      obtain ⟨m', h1, h2⟩ := h
      rw [setTranslationFromSymbolsC_W h1]
      split at h2
      · rename_i hm
        rw [if_pos hm]
        simp only [Option.bind_eq_some_iff] at h2
        obtain ⟨m'', h3, h4⟩ := h2
        rw [setInversionC_W h3]
        exact Option.some.inj h4
      · rename_i hm
        rw [if_neg hm]
        exact Option.some.inj h2

theorem seitzListC_W {l : List MatrixSymbol} {r : Option (List M4)} (h : seitzListC l = some r) : seitzListW l = r := by
  unfold seitzListW
  induction l generalizing r with
  | nil => exact Option.some.inj h
  | cons s l ih =>
    unfold seitzListC at h
    simp only [Option.bind_eq_bind, Option.bind_eq_some_iff] at h
    obtain ⟨o, h1, h2⟩ := h
    rw [List.mapM_cons, seitzMatrixC_W h1]
    cases o with
    | none => exact Option.some.inj h2
    | some m =>
      simp only [Option.bind_eq_some_iff] at h2
      obtain ⟨o', h3, h4⟩ := h2
      simp only [Option.bind_eq_bind, Option.bind_some]
      rw [ih h3]
      cases o' with
      | none => exact Option.some.inj h4
      | some ms => exact Option.some.inj h4

theorem latticeMatricesW (l : LatticeSymbol) : l.seitzMatricesW = l.seitzMatrices := by
  obtain ⟨b, c⟩ := l
  cases b <;> cases c <;> decide +kernel

theorem minimalReprC_W {l : LatticeSymbol} {t r : V3} (h : l.minimalReprC t = some r) : l.minimalReprW t = r := by
  simp only [LatticeSymbol.minimalReprC, Option.bind_eq_bind, Option.bind_eq_some_iff] at h
  obtain ⟨c, h1, h2⟩ := h
  unfold LatticeSymbol.minimalReprW
  rw [mapM_W (g := fun tr => (t.addW tr).map positiveMod) (fun tr c hc => ?_) h1]
  · exact Option.some.inj h2
  · simp only [Option.bind_eq_some_iff] at hc
    obtain ⟨u, h3, e⟩ := hc
    rw [V3.addC_W h3]
    exact Option.some.inj e

theorem allFreshC_W {set : List V3} {t : V3} {trs : List V3} {b : Bool}
    (h : LatticeSymbol.allFreshC set t trs = some b) : trs.all (LatticeSymbol.freshForW set t) = b := by
  induction trs with
  | nil => exact Option.some.inj h
  | cons tr rest ih =>
    unfold LatticeSymbol.allFreshC at h
    simp only [Option.bind_eq_bind, Option.bind_eq_some_iff] at h
    obtain ⟨u, h1, h⟩ := h
    rw [List.all_cons]
    have e : LatticeSymbol.freshForW set t tr = ((! set.contains (u.map positiveMod)) &&
      (u.map (fun v => Int.tmod v base)).toList.all (fun v => decide (v ≠ 0))) := by
      unfold LatticeSymbol.freshForW
      rw [V3.addC_W h1]
    rw [e]
    split at h
    · rename_i hc; rw [hc, Bool.true_and]; exact ih h
    · rename_i hc
      rw [Bool.not_eq_true] at hc
      rw [hc, Bool.false_and]; exact Option.some.inj h

theorem addToListC_W {l : LatticeSymbol} {st : GenState} {m : M4} {r : Bool × GenState}
    (h : l.addToListC st m = some r) : l.addToListW st m = r := by
  unfold LatticeSymbol.addToListC at h
  unfold LatticeSymbol.addToListW
  split at h
  · rename_i e
    rw [e]
    simp only [Option.bind_eq_bind, Option.bind_eq_some_iff] at h
    obtain ⟨t, h1, h2⟩ := h
    simp only
    rw [minimalReprC_W h1]
    exact Option.some.inj h2
  · rename_i set e
    rw [e]
    simp only [Option.bind_eq_bind, Option.bind_eq_some_iff] at h ⊢
    obtain ⟨b, h1, h2⟩ := h
    rw [allFreshC_W h1]
    split at h2
    · rename_i hb
      rw [if_pos hb]
      simp only [Option.bind_eq_some_iff] at h2
      obtain ⟨t, h3, h4⟩ := h2
      rw [minimalReprC_W h3]
      split at h4
      · rename_i hc; rw [if_pos hc]; exact Option.some.inj h4
      · rename_i hc; rw [if_neg hc]; exact Option.some.inj h4
    · rename_i hb
      rw [if_neg hb]; exact Option.some.inj h2

/-- Everything offered to the list has a reduced translation, so offering never wraps. -/
theorem addToListW_eq {l : LatticeSymbol} {st : GenState} {m : M4}
    (ht : Within 12 m.tr.x ∧ Within 12 m.tr.y ∧ Within 12 m.tr.z) : l.addToListW st m = l.addToList st m :=
  addToListC_W (addToListC_ok ht)

theorem innerC_W {l : LatticeSymbol} {i : M4} {js : List M4} {st r : GenState} (h : l.innerC i js st = some r) :
    l.innerW i js st = r := by
  induction js generalizing st with
  | nil => exact Option.some.inj h
  | cons j js ih =>
    unfold LatticeSymbol.innerC at h
    unfold LatticeSymbol.innerW
    simp only [Option.bind_eq_bind, Option.bind_eq_some_iff] at h
    obtain ⟨p, h1, q, h2, h3⟩ := h
    rw [M4.mulC_W h1, addToListC_W h2]
    obtain ⟨b, st'⟩ := q
    cases b
    · exact ih h3
    · exact Option.some.inj h3

theorem roundC_W {l : LatticeSymbol} {st r : GenState} (h : l.roundC st = some r) : l.roundW st = r :=
  foldlM_W (fun _ _ _ e => innerC_W e) h

theorem roundsC_W {l : LatticeSymbol} {fuel : Nat} {st r : GenState} (h : l.roundsC fuel st = some (some r)) :
    l.roundsW fuel st = some r := by
  induction fuel generalizing st with
  | zero => cases h
  | succ fuel ih =>
    unfold LatticeSymbol.roundsC at h
    unfold LatticeSymbol.roundsW
    split at h
    · cases h
    · rename_i st' e
      rw [roundC_W e]
      simp only
      split at h
      · rename_i hl; rw [if_pos hl]; exact ih h
      · rename_i hl; rw [if_neg hl]; exact Option.some.inj h

theorem startStateC_W {n : HallSymbolNotation} {ms : List M4} {r : GenState} (h : n.startStateC ms = some r) :
    n.startStateW ms = r := by
  simp only [HallSymbolNotation.startStateC, Option.bind_eq_bind, Option.bind_eq_some_iff] at h
  obtain ⟨lat, h1, st0, h2, h3⟩ := h
  rw [latticeMatricesC_ok] at h1
  obtain rfl := Option.some.inj h1
  unfold HallSymbolNotation.startStateW
  simp only
  rw [latticeMatricesW, foldlM_W (g := fun st m => (n.latticeSymbol.addToListW st m).2) (fun b a c e => ?_) h2]
  · refine foldlM_W (fun b a c e => ?_) h3
    simp only [Option.bind_eq_some_iff] at e
    obtain ⟨sh, e1, q, e2, e3⟩ := e
    rw [shiftedMatrixC_W e1, addToListC_W e2]
    exact Option.some.inj e3
  · simp only [Option.bind_eq_some_iff] at e
    obtain ⟨q, e2, e3⟩ := e
    rw [addToListC_W e2]
    exact Option.some.inj e3

/-! ## The texts -/

theorem entryTextW_eq {c : Nat} {v : Int} (h : I32 ((c : Int) * v)) : M4.entryTextW c v = M4.entryText c v := by
  unfold M4.entryTextW M4.entryText
  rw [wrap_of_I32 h]
  rfl

theorem jonesRotW_eq {m : M4} (h : textFits m = true) : m.jonesRotW = m.jonesRot := by
  simp only [textFits, List.all_cons, List.all_nil, Bool.and_true, Bool.and_eq_true, decide_eq_true_eq] at h
  obtain ⟨⟨⟨h1, h2, h3⟩, h4, h5, h6⟩, h7, h8, h9⟩ := h
  unfold M4.jonesRotW M4.jonesRot M4.rotationTextsW M4.rotationTexts M4.rowTextW M4.rowText
  rw [entryTextW_eq (c := 120) h1, entryTextW_eq (c := 120) h2, entryTextW_eq (c := 120) h3,
    entryTextW_eq (c := 121) h4, entryTextW_eq (c := 121) h5, entryTextW_eq (c := 121) h6,
    entryTextW_eq (c := 122) h7, entryTextW_eq (c := 122) h8, entryTextW_eq (c := 122) h9]

theorem sortKeyW_eq {order : List String} {m : M4} (h : textFits m = true) : sortKeyW order m = sortKey order m := by
  unfold sortKeyW sortKey
  rw [jonesRotW_eq h]
  rfl

theorem sortW_eq (n : HallSymbolNotation) {l : List M4} (h : l.length < 2 ∨ ∀ m ∈ l, textFits m = true) :
    n.sortGeneralPositionsW l = n.sortGeneralPositions l := by
  unfold sortGeneralPositionsW sortGeneralPositions
  cases n.matriceOrder with
  | error e => rfl
  | ok order =>
    change (if l.length < 2 then _ else _) = (if l.length < 2 then _ else _)
    by_cases hl : l.length < 2
    · rw [if_pos hl, if_pos hl]
    · rw [if_neg hl, if_neg hl]
      have h' := h.resolve_left hl
      have e : l.mapM (fun m => do let k ← sortKeyW order m; pure (k, m)) =
          l.mapM (fun m => do let k ← sortKey order m; pure (k, m)) := by
        clear hl h
        induction l with
        | nil => rfl
        | cons m l ih =>
          rw [List.mapM_cons, List.mapM_cons, sortKeyW_eq (h' m (List.mem_cons_self ..)),
            ih (fun m' hm => h' m' (List.mem_cons_of_mem _ hm))]
      rw [e]

end Verif
