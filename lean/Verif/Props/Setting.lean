import Verif.Props.TwoTables
import Verif.Rows.Settings1
import Verif.Rows.Settings2
import Verif.Rows.Settings3
import Verif.Rows.Origins1
import Verif.Rows.Origins2
import Verif.Rows.Origins3
import Verif.Rows.Origins4

/-! # The settings named by the codes (C92, C93) -/

namespace Verif

set_option maxRecDepth 100000

/-- All rows in a derived setting. -/
def settingRows : List SettingRow := settingRows1 ++ settingRows2 ++ settingRows3

theorem settingRows_ok : ∀ r ∈ settingRows, r.check = true := by
  intro r hr
  simp only [settingRows, List.mem_append] at hr
  rcases hr with (h | h) | h
  · exact List.all_eq_true.1 settingRows1_ok r h
  · exact List.all_eq_true.1 settingRows2_ok r h
  · exact List.all_eq_true.1 settingRows3_ok r h

/-- Number and setting as one number. -/
def settingKey (code : String) : Nat := (settingName code).foldl (fun acc c => 256 * acc + c.toNat) (spaceGroupNumber code)

theorem settingKey_congr {c c' : String} (h1 : spaceGroupNumber c = spaceGroupNumber c') (h2 : settingName c = settingName c') :
    settingKey c = settingKey c' := by
  unfold settingKey; rw [h1, h2]

theorem settingKeys_nodup : (Data.numberAndChoice.map settingKey).Nodup := nodupNat_iff (by decide +kernel)

/-- A number and a setting name occur in at most one row. -/
theorem setting_unique {i j : Nat} {c c' : String} (hi : fullTable.getNumber i = some c) (hj : fullTable.getNumber j = some c')
    (h1 : spaceGroupNumber c = spaceGroupNumber c') (h2 : settingName c = settingName c') : i = j := by
  have e1 : (Data.numberAndChoice.map settingKey)[i]? = some (settingKey c) := by
    rw [List.getElem?_map]; exact congrArg (Option.map settingKey) hi
  have e2 : (Data.numberAndChoice.map settingKey)[j]? = some (settingKey c) := by
    rw [List.getElem?_map, settingKey_congr h1 h2]; exact congrArg (Option.map settingKey) hj
  obtain ⟨hb, _⟩ := List.getElem?_eq_some_iff.1 e1
  exact (List.getElem?_inj hb settingKeys_nodup).1 (e1.trans e2.symm)

/-- One step of the walk through the table: a code in a base setting, or the next row of `settingRows`. -/
def settingWalk : Nat → List (String × String) → List SettingRow → Bool
  | _, [], rs => rs.isEmpty
  | i, (c, h) :: t, rs =>
    bif baseSettings.any (fun s => s.toList == settingName c) then settingWalk (i + 1) t rs
    else match rs with
      | [] => false
      | r :: rs =>
        Nat.beq r.i i && r.hall == h &&
        (match settings[r.k]?, Data.numberAndChoice[r.j]?, Data.hallName[r.j]? with
        | some s, some c', some h' => s.1.toList == settingName c && s.2.1.toList == settingName c' &&
            Nat.beq (spaceGroupNumber c) (spaceGroupNumber c') && r.base == h'
        | _, _, _ => false) && settingWalk (i + 1) t rs

theorem settingWalk_ok : settingWalk 0 (Data.numberAndChoice.zip Data.hallName) settingRows = true := by decide +kernel

theorem settingWalk_sound {i : Nat} {t : List (String × String)} {rs : List SettingRow} (h : settingWalk i t rs = true)
    {k : Nat} {c hs : String} (hk : t[k]? = some (c, hs)) :
    settingName c ∈ baseSettings.map String.toList ∨
    ∃ r ∈ rs, r.hall = hs ∧ ∃ s c', settings[r.k]? = some s ∧ fullTable.getNumber r.j = some c' ∧
      fullTable.getHall r.j = some r.base ∧ s.1.toList = settingName c ∧ s.2.1.toList = settingName c' ∧
      spaceGroupNumber c = spaceGroupNumber c' := by
  induction t generalizing i rs k with
  | nil => cases hk
  | cons p t ih =>
    obtain ⟨c0, h0⟩ := p
    unfold settingWalk at h
    cases hb : baseSettings.any (fun s => s.toList == settingName c0) with
    | true =>
      rw [hb] at h
      cases k with
      | zero =>
        simp only [List.getElem?_cons_zero, Option.some.injEq, Prod.mk.injEq] at hk
        obtain ⟨rfl, rfl⟩ := hk
        obtain ⟨s, hs, e⟩ := List.any_eq_true.1 hb
        exact .inl (List.mem_map.2 ⟨s, hs, beq_iff_eq.1 e⟩)
      | succ k => exact ih h hk
    | false =>
      rw [hb] at h
      cases rs with
      | nil => cases h
      | cons r rs =>
        simp only [cond_false, Bool.and_eq_true, beq_iff_eq] at h
        obtain ⟨⟨⟨_, h2⟩, h3⟩, h4⟩ := h
        cases k with
        | zero =>
          simp only [List.getElem?_cons_zero, Option.some.injEq, Prod.mk.injEq] at hk
          obtain ⟨rfl, rfl⟩ := hk
          right
          refine ⟨r, List.mem_cons_self .., h2, ?_⟩
          split at h3
          · rename_i s c' h' e1 e2 e3
            simp only [Bool.and_eq_true, beq_iff_eq] at h3
            obtain ⟨⟨⟨a1, a2⟩, a3⟩, a4⟩ := h3
            exact ⟨s, c', e1, e2, by rw [a4]; exact e3, a1, a2, Nat.eq_of_beq_eq_true a3⟩
          · cases h3
        | succ k =>
          rcases ih h4 hk with h | ⟨r', hr', h⟩
          · exact .inl h
          · exact .inr ⟨r', List.mem_cons_of_mem _ hr', h⟩

theorem settings_names_nodup : (settings.map Prod.fst).Nodup := by decide +kernel

/-! ## C92 -/

/-- C92, first part. After the colon every code of the full table has nothing, one of the base settings, or the name of a
setting derived from a base setting, which is then listed in exactly one row for the same number. -/
theorem setting_named {i : Nat} {code : String} (hi : fullTable.getNumber i = some code) :
    settingName code ∈ baseSettings.map String.toList ∨
    ∃ name base axes, (name, base, axes) ∈ settings ∧ settingName code = name.toList ∧
      ∃ j code', fullTable.getNumber j = some code' ∧ spaceGroupNumber code' = spaceGroupNumber code ∧
        settingName code' = base.toList ∧
        ∀ j' c', fullTable.getNumber j' = some c' → spaceGroupNumber c' = spaceGroupNumber code →
          settingName c' = base.toList → j' = j := by
  obtain ⟨h, hh⟩ := ((index_lookups fullTable (.inl rfl)).2.2 i).2.2.2 ((((index_lookups fullTable (.inl rfl)).2.2 i).1).1 ⟨_, hi⟩)
  have hz : (Data.numberAndChoice.zip Data.hallName)[i]? = some (code, h) := List.getElem?_zip_eq_some.2 ⟨hi, hh⟩
  rcases settingWalk_sound settingWalk_ok hz with hb | ⟨r, hr, _, s, c', e1, e2, _, e4, e5, e6⟩
  · exact .inl hb
  · right
    refine ⟨s.1, s.2.1, s.2.2, List.mem_of_getElem? e1, e4.symm, r.j, c', e2, e6.symm, e5.symm, ?_⟩
    intro j' c'' h1 h2 h3
    exact setting_unique h1 e2 (h2.trans e6) (h3.trans e5)

/-- C92. Two rows of the full table with the same number, one in a base setting and one in a setting derived from it,
describe the same group written in the two sets of axes, with the same origin: the group of the derived row is that of the
base row in exactly the axes the code names. -/
theorem setting_axes {i j : Nat} {code code' h h' name base : String} {axes : NewAxes} {n n' : HallSymbolNotation}
    (hs : (name, base, axes) ∈ settings)
    (hi : fullTable.getNumber i = some code) (hh : fullTable.getHall i = some h) (hn : HallSymbolNotation.tryFromStr h.toList = some n)
    (hname : settingName code = name.toList)
    (hj : fullTable.getNumber j = some code') (hh' : fullTable.getHall j = some h') (hn' : HallSymbolNotation.tryFromStr h'.toList = some n')
    (hbase : settingName code' = base.toList) (hnum : spaceGroupNumber code = spaceGroupNumber code') :
    InNewAxes axes n' n := by
  have hz : (Data.numberAndChoice.zip Data.hallName)[i]? = some (code, h) := List.getElem?_zip_eq_some.2 ⟨hi, hh⟩
  have hnb : ∀ s ∈ settings, s.1 ∉ baseSettings := by decide +kernel
  rcases settingWalk_sound settingWalk_ok hz with hb | ⟨r, hr, e0, s, c', e1, e2, e3, e4, e5, e6⟩
  · obtain ⟨b, hb, e⟩ := List.mem_map.1 hb
    rw [hname] at e
    exact absurd (String.toList_injective e ▸ hb) (hnb _ hs)
  · have hsn : s = (name, base, axes) := by
      have := List.inj_on_of_nodup_map settings_names_nodup (List.mem_of_getElem? e1) hs
      exact this (String.toList_injective (e4.trans hname))
    subst hsn
    have hjj : j = r.j := setting_unique hj e2 (hnum.symm.trans e6) (hbase.trans e5)
    subst hjj
    rw [hh'] at e3
    cases e3
    obtain ⟨nm, bs, e, m, m', k1, k2, k3, k4⟩ := SettingRow.check_sound (settingRows_ok r hr)
    rw [e1] at k1
    cases k1
    rw [e0] at k2
    have t1 := tryFromStr_of_parse k2
    have t2 := tryFromStr_of_parse k3
    rw [hn] at t1
    rw [hn'] at t2
    cases t1
    cases t2
    exact k4

/-- Cases of the theorem: `62:-cba` from `62`, `15:-c2` from `15:b1`, `166:R` from `166:H`. -/
example : fullTable.getNumber 294 = some "62:-cba" ∧ fullTable.getHall 294 = some "-P 2n 2ac" ∧
    settingName "62:-cba" = "-cba".toList ∧
    fullTable.getNumber 291 = some "62" ∧ fullTable.getHall 291 = some "-P 2ac 2n" ∧ settingName "62" = "".toList ∧
    spaceGroupNumber "62:-cba" = spaceGroupNumber "62" ∧
    (fullTable.getNumber 99 = some "15:-c2" ∧ fullTable.getNumber 89 = some "15:b1") := by
  decide +kernel

/-- C92 for the positions the library returns: an operation is listed for the derived row iff the same motion, written in
the axes of the base row, is listed for the base row. -/
theorem setting_positions {i j : Nat} {code code' h h' name base : String} {axes : NewAxes} {n n' : HallSymbolNotation}
    {g g' : GeneralPositions} (hs : (name, base, axes) ∈ settings)
    (hi : fullTable.getNumber i = some code) (hh : fullTable.getHall i = some h) (hn : HallSymbolNotation.tryFromStr h.toList = some n)
    (hname : settingName code = name.toList)
    (hj : fullTable.getNumber j = some code') (hh' : fullTable.getHall j = some h') (hn' : HallSymbolNotation.tryFromStr h'.toList = some n')
    (hbase : settingName code' = base.toList) (hnum : spaceGroupNumber code = spaceGroupNumber code')
    (hg : HasPositions n g) (hg' : HasPositions n' g') (f f' : Pt → Pt) (hff : ∀ p, axes.old (f p) = f' (axes.old p)) :
    Listed g f ↔ Listed g' f' := by
  obtain ⟨_, _, _, _, _, _, _, hf⟩ := inTables_facts (.inl ⟨i, hi, hh⟩) hn
  obtain ⟨_, _, _, _, _, _, _, hf'⟩ := inTables_facts (.inl ⟨j, hj, hh'⟩) hn'
  rw [← positions_complete hg hf.described.consistent, ← positions_complete hg' hf'.described.consistent]
  exact (setting_axes hs hi hh hn hname hj hh' hn' hbase hnum f' f hff).symm

/-- In particular `62:-cba` is `62` with the axes `-c, b, a`: the point with new coordinates `(x, y, z)` has the old
coordinates `(z, y, -x)`. -/
theorem setting_axes_sample (f : Pt → Pt) : SpaceGroup (hall "-P 2ac 2n") f ↔
    SpaceGroup (hall "-P 2n 2ac") (fun p => let q := f ⟨p.z, p.y, -p.x⟩; ⟨-q.z, q.y, q.x⟩) := by
  refine setting_axes (i := 294) (j := 291) (code := "62:-cba") (code' := "62") (h := "-P 2n 2ac") (h' := "-P 2ac 2n")
    (name := "-cba") (base := "") (axes := ⟨⟨0, 0, -1⟩, ⟨0, 1, 0⟩, ⟨1, 0, 0⟩, 1⟩) ?_ (by decide +kernel) (by decide +kernel)
    (by decide +kernel) (by decide +kernel) (by decide +kernel) (by decide +kernel) (by decide +kernel) (by decide +kernel)
    (by decide +kernel) _ _ ?_
  · simp [settings, NewAxes.a, NewAxes.b, NewAxes.c, V3.neg]
  · intro p
    simp only [NewAxes.old]
    ext <;> simp

/-! ## C93 -/

/-- All rows with two origin choices. -/
def originRows : List OriginRow := originRows1 ++ originRows2 ++ originRows3 ++ originRows4

theorem originRows_ok : ∀ r ∈ originRows, r.check = true := by
  intro r hr
  simp only [originRows, List.mem_append] at hr
  rcases hr with ((h | h) | h) | h
  · exact List.all_eq_true.1 originRows1_ok r h
  · exact List.all_eq_true.1 originRows2_ok r h
  · exact List.all_eq_true.1 originRows3_ok r h
  · exact List.all_eq_true.1 originRows4_ok r h

/-- C93. For each of the 24 numbers with two origin choices, the rows of choice 1 and choice 2 describe the same group with
the same axes, the origin of choice 1 lying where the International Tables put it seen from the origin of choice 2; choice 2
puts the origin on an inversion centre, choice 1 does not. -/
theorem origin_choices {i j : Nat} {code code' h h' : String} {n n' : HallSymbolNotation}
    (hi : fullTable.getNumber i = some code) (hh : fullTable.getHall i = some h) (hn : HallSymbolNotation.tryFromStr h.toList = some n)
    (hone : settingName code = ['1'])
    (hj : fullTable.getNumber j = some code') (hh' : fullTable.getHall j = some h') (hn' : HallSymbolNotation.tryFromStr h'.toList = some n')
    (htwo : settingName code' = ['2']) (hnum : spaceGroupNumber code = spaceGroupNumber code') :
    ∃ v, (spaceGroupNumber code, v) ∈ originOne ∧ (∀ f, SpaceGroup n f ↔ SpaceGroup n' (movedBy (in24ths v) f)) ∧
      SpaceGroup n' (fun p => ⟨-p.x, -p.y, -p.z⟩) ∧ ¬ SpaceGroup n (fun p => ⟨-p.x, -p.y, -p.z⟩) := by
  have hall : ((Data.numberAndChoice.zip Data.hallName).zipIdx.all fun p =>
      ! (settingName p.1.1 == ['1']) || originRows.any fun r => Nat.beq r.i p.2 && r.first == p.1.2 &&
        originOne.any (fun o => Nat.beq o.1 (spaceGroupNumber p.1.1) && decide (o.2 = r.q)) &&
        (match Data.numberAndChoice[r.j]?, Data.hallName[r.j]? with
        | some c', some h' => settingName c' == ['2'] && Nat.beq (spaceGroupNumber p.1.1) (spaceGroupNumber c') && r.second == h'
        | _, _ => false)) = true := by decide +kernel
  have hz : (Data.numberAndChoice.zip Data.hallName)[i]? = some (code, h) := List.getElem?_zip_eq_some.2 ⟨hi, hh⟩
  have hm : ((code, h), i) ∈ (Data.numberAndChoice.zip Data.hallName).zipIdx :=
    List.mem_zipIdx_iff_getElem?.2 hz
  have := List.all_eq_true.1 hall _ hm
  simp only [hone, beq_self_eq_true, Bool.not_true, Bool.false_or] at this
  obtain ⟨r, hr, hc⟩ := List.any_eq_true.1 this
  simp only [Bool.and_eq_true, beq_iff_eq, List.any_eq_true, decide_eq_true_eq] at hc
  obtain ⟨⟨⟨_, e1⟩, o, ho, e2, e3⟩, e4⟩ := hc
  split at e4
  · rename_i c' h'' k1 k2
    simp only [Bool.and_eq_true, beq_iff_eq] at e4
    obtain ⟨⟨a1, a2⟩, a3⟩ := e4
    have hjj : j = r.j := setting_unique hj k1 (hnum.symm.trans (Nat.eq_of_beq_eq_true a2)) (htwo.trans a1.symm)
    subst hjj
    rw [show Data.hallName[r.j]? = fullTable.getHall r.j from rfl, hh'] at k2
    cases k2
    obtain ⟨m, m', k3, k4, k5, k6, k7⟩ := OriginRow.check_sound (originRows_ok r hr)
    rw [e1] at k3
    rw [a3] at k4
    have t1 := tryFromStr_of_parse k3
    have t2 := tryFromStr_of_parse k4
    rw [hn] at t1
    rw [hn'] at t2
    cases t1
    cases t2
    refine ⟨r.q, ?_, k5, k6, k7⟩
    rw [← e3, ← Nat.eq_of_beq_eq_true e2]
    exact ho
  · cases e4

/-- C93 for the positions the library returns. -/
theorem origin_positions {i j : Nat} {code code' h h' : String} {n n' : HallSymbolNotation} {g g' : GeneralPositions}
    (hi : fullTable.getNumber i = some code) (hh : fullTable.getHall i = some h) (hn : HallSymbolNotation.tryFromStr h.toList = some n)
    (hone : settingName code = ['1'])
    (hj : fullTable.getNumber j = some code') (hh' : fullTable.getHall j = some h') (hn' : HallSymbolNotation.tryFromStr h'.toList = some n')
    (htwo : settingName code' = ['2']) (hnum : spaceGroupNumber code = spaceGroupNumber code')
    (hg : HasPositions n g) (hg' : HasPositions n' g') :
    ∃ v, (spaceGroupNumber code, v) ∈ originOne ∧ (∀ f, Listed g f ↔ Listed g' (movedBy (in24ths v) f)) ∧
      Listed g' (fun p => ⟨-p.x, -p.y, -p.z⟩) ∧ ¬ Listed g (fun p => ⟨-p.x, -p.y, -p.z⟩) := by
  obtain ⟨_, _, _, _, _, _, _, hf⟩ := inTables_facts (.inl ⟨i, hi, hh⟩) hn
  obtain ⟨_, _, _, _, _, _, _, hf'⟩ := inTables_facts (.inl ⟨j, hj, hh'⟩) hn'
  have e := positions_complete hg hf.described.consistent
  have e' := positions_complete hg' hf'.described.consistent
  obtain ⟨v, h1, h2, h3, h4⟩ := origin_choices hi hh hn hone hj hh' hn' htwo hnum
  exact ⟨v, h1, fun f => by rw [← e, ← e']; exact h2 f, (e' _).1 h3, fun h => h4 ((e _).2 h)⟩

/-- The origin choices come in pairs: exactly the 24 numbers of `originOne` have them. -/
theorem origin_choices_numbers (k : Nat) :
    ((∃ v, (k, v) ∈ originOne) ↔ ∃ i c, fullTable.getNumber i = some c ∧ spaceGroupNumber c = k ∧ settingName c = ['1']) ∧
    ((∃ v, (k, v) ∈ originOne) ↔ ∃ i c, fullTable.getNumber i = some c ∧ spaceGroupNumber c = k ∧ settingName c = ['2']) := by
  have h : ∀ s : List Char, originOne.map Prod.fst = (Data.numberAndChoice.filter fun c => settingName c == s).map spaceGroupNumber →
      ((∃ v, (k, v) ∈ originOne) ↔ ∃ i c, fullTable.getNumber i = some c ∧ spaceGroupNumber c = k ∧ settingName c = s) := by
    intro s hs
    constructor
    · rintro ⟨v, hv⟩
      have : k ∈ originOne.map Prod.fst := List.mem_map.2 ⟨_, hv, rfl⟩
      rw [hs] at this
      obtain ⟨c, hc, e⟩ := List.mem_map.1 this
      obtain ⟨hc, hs⟩ := List.mem_filter.1 hc
      obtain ⟨i, hi⟩ := List.mem_iff_getElem?.1 hc
      exact ⟨i, c, hi, e, beq_iff_eq.1 hs⟩
    · rintro ⟨i, c, hi, e, hs'⟩
      have : k ∈ originOne.map Prod.fst := by
        rw [hs]
        exact List.mem_map.2 ⟨c, List.mem_filter.2 ⟨List.mem_of_getElem? hi, beq_iff_eq.2 hs'⟩, e⟩
      obtain ⟨⟨_, v⟩, hv, rfl⟩ := List.mem_map.1 this
      exact ⟨v, hv⟩
  exact ⟨h _ (by decide +kernel), h _ (by decide +kernel)⟩

/-- A case: number 70. -/
example : fullTable.getNumber 334 = some "70:1" ∧ fullTable.getHall 334 = some "F 2 2 -1d" ∧ settingName "70:1" = ['1'] ∧
    fullTable.getNumber 335 = some "70:2" ∧ fullTable.getHall 335 = some "-F 2uv 2vw" ∧ settingName "70:2" = ['2'] ∧
    spaceGroupNumber "70:1" = spaceGroupNumber "70:2" := by decide +kernel

end Verif
