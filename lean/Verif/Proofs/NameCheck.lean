import Verif.Proofs.HermannMauguin

/-! # The check of a name against a row, and names that fit two groups -/

namespace Verif.HM

variable {n n' : HallSymbolNotation} {L L' : List M4}

/-- The symbols that occur in names, with their directions (`true`: on rhombohedral axes). -/
def vocab : List (Bool × V3 × Part) := [
  (false, z, .axis 2 0), (false, z, .axis 2 1), (false, z, .axis 3 0), (false, z, .axis 3 1), (false, z, .axis 3 2),
  (false, z, .axis 4 0), (false, z, .axis 4 1), (false, z, .axis 4 2), (false, z, .axis 4 3), (false, z, .axis 6 0),
  (false, z, .axis 6 1), (false, z, .axis 6 2), (false, z, .axis 6 3), (false, z, .axis 6 4), (false, z, .axis 6 5),
  (false, z, .bar 1), (false, z, .bar 3), (false, z, .bar 4), (false, z, .bar 6),
  (false, z, .plane 'a'), (false, z, .plane 'b'), (false, z, .plane 'd'), (false, z, .plane 'm'), (false, z, .plane 'n'),
  (false, y, .axis 2 0), (false, y, .axis 2 1),
  (false, y, .plane 'a'), (false, y, .plane 'c'), (false, y, .plane 'd'), (false, y, .plane 'm'), (false, y, .plane 'n'),
  (false, xy, .axis 2 0), (false, xy, .plane 'c'), (false, xy, .plane 'd'), (false, xy, .plane 'm'), (false, xy, .plane 'n'),
  (false, x, .axis 2 0), (false, x, .axis 2 1),
  (false, x, .plane 'b'), (false, x, .plane 'c'), (false, x, .plane 'd'), (false, x, .plane 'm'), (false, x, .plane 'n'),
  (false, xyz, .axis 3 0), (false, xyz, .bar 3),
  (true, xy, .axis 2 0), (true, xy, .plane 'c'), (true, xy, .plane 'm'), (true, xyz, .axis 3 0), (true, xyz, .bar 3)]

/-- Whether the axes are rhombohedral. -/
def System.isRh : System → Bool
  | .rhombohedral => true
  | _ => false

/-- A system with the given axes. -/
def rhSystem (b : Bool) : System := bif b then .rhombohedral else .cubic

theorem present_system (sys : System) (d : V3) (p : Part) : Present n sys d p ↔ Present n (rhSystem sys.isRh) d p := by
  have h : ∀ g, glides sys d g = glides (rhSystem sys.isRh) d g := by
    intro g
    unfold glides
    cases sys <;> rfl
  unfold Present
  refine exists_congr fun m => and_congr_right fun _ => and_congr_right fun _ => ?_
  cases p with
  | axis k s => rfl
  | bar k => rfl
  | plane g => simp only [Part.Shifts, h]

/-- The bits of the symbols of a name. -/
def Name.mask (nm : Name) : Nat := go vocab 1
where
  /-- From the `k`-th word on, with `b = 2^k`. -/
  go : List (Bool × V3 × Part) → Nat → Nat
    | [], _ => 0
    | v :: vs, b =>
      (bif nm.parts.any (fun e => (v.1 == nm.system.isRh) && vecB e.1 v.2.1 && decide (e.2 = v.2.2)) then b else 0) + go vs (2 * b)

/-- The words of a mask. -/
def maskWords (mask : Nat) : List (Bool × V3 × Part) → List (Bool × V3 × Part)
  | [] => []
  | v :: vs => bif Nat.beq (mask % 2) 1 then v :: maskWords (mask / 2) vs else maskWords (mask / 2) vs

theorem mask_go_words (nm : Name) (vs : List (Bool × V3 × Part)) :
    ∀ b, Name.mask.go nm vs b = b * Name.mask.go nm vs 1 := by
  induction vs with
  | nil => intro b; simp [Name.mask.go]
  | cons v vs ih =>
    intro b
    unfold Name.mask.go
    rw [ih (2 * b), ih (2 * 1)]
    cases (nm.parts.any _) <;> simp only [cond_true, cond_false] <;> ring

theorem mask_go_words_mem (nm : Name) (vs : List (Bool × V3 × Part)) (mask : Nat)
    (h : Nat.land (Name.mask.go nm vs 1) mask ≠ 0) :
    ∃ v ∈ maskWords mask vs, v.1 = nm.system.isRh ∧ (v.2.1, v.2.2) ∈ nm.parts := by
  induction vs generalizing mask with
  | nil => exact absurd (show Nat.land 0 mask = 0 from Nat.zero_and mask) h
  | cons v vs ih =>
    unfold Name.mask.go at h
    rw [mask_go_words] at h
    unfold maskWords
    set G := Name.mask.go nm vs 1 with hG
    by_cases h2 : Nat.land G (mask / 2) ≠ 0
    · obtain ⟨w, hw, h3⟩ := ih _ h2
      refine ⟨w, ?_, h3⟩
      cases Nat.beq (mask % 2) 1
      · exact hw
      · exact List.mem_cons_of_mem _ hw
    · rw [not_not] at h2
      cases ha : (nm.parts.any (fun e => (v.1 == nm.system.isRh) && vecB e.1 v.2.1 && decide (e.2 = v.2.2))) with
      | false =>
        rw [ha, cond_false, Nat.zero_add] at h
        refine absurd ?_ h
        change (2 * 1 * G) &&& mask = 0
        have h2' : G &&& (mask / 2) = 0 := h2
        apply Nat.eq_of_testBit_eq
        intro i
        cases i with
        | zero => simp
        | succ i =>
          have := congrArg (fun x => x.testBit i) h2'
          simp only [Nat.testBit_and, Nat.zero_testBit] at this
          rw [Nat.testBit_and, Nat.zero_testBit, Nat.testBit_succ, Nat.testBit_succ]
          rw [show 2 * 1 * G / 2 = G by omega]
          exact this
      | true =>
        cases hm : Nat.beq (mask % 2) 1 with
        | true =>
          obtain ⟨e, he, h3⟩ := List.any_eq_true.1 ha
          simp only [Bool.and_eq_true, beq_iff_eq, vecB_iff, decide_eq_true_eq] at h3
          refine ⟨v, List.mem_cons_self .., h3.1.1, ?_⟩
          rw [← h3.1.2, ← h3.2]
          exact he
        | false =>
          rw [ha, cond_true] at h
          refine absurd ?_ h
          have hm' : mask % 2 = 0 := by
            have : ¬ mask % 2 = 1 := fun e => by rw [e] at hm; cases hm
            omega
          change (1 + 2 * 1 * G) &&& mask = 0
          have h2' : G &&& (mask / 2) = 0 := h2
          apply Nat.eq_of_testBit_eq
          intro i
          cases i with
          | zero => simp [hm']
          | succ i =>
            have := congrArg (fun x => x.testBit i) h2'
            simp only [Nat.testBit_and, Nat.zero_testBit] at this
            rw [Nat.testBit_and, Nat.zero_testBit, Nat.testBit_succ, Nat.testBit_succ]
            rw [show (1 + 2 * 1 * G) / 2 = G by omega]
            exact this

/-- A row with its name: Hall symbol, name, whether the name fits, the bits of the name, and the bits of some symbols the
group has no operation for. -/
structure NameRow where
  hall : String
  name : String
  ok : Bool
  mask : Nat
  absent : Nat

/-- The check of one row. -/
def NameRow.check (row : NameRow) : Bool :=
  match parseHallSymbol row.hall.toList with
  | some (n, []) =>
    match n.seitzMatrices, readName row.name.toList with
    | some ms, some nm =>
      (bif row.ok then fitsNameB nm n (certList n ms) else true) && Nat.beq nm.mask row.mask &&
        (maskWords row.absent vocab).all fun v => ! presentB n.latticeSymbol (certList n ms) (rhSystem v.1) v.2.1 v.2.2
    | _, _ => false
  | _ => false

/-- What the check establishes. -/
structure NameFacts (row : NameRow) (n : HallSymbolNotation) (nm : Name) : Prop where
  read : readName row.name.toList = some nm
  fits : row.ok = true → Fits nm n
  mask : nm.mask = row.mask
  absent : ∀ nm' : Name, Nat.land nm'.mask row.absent ≠ 0 → ¬ Fits nm' n

theorem vocab_valid : vocab.all (fun v => v.2.2.valid) = true := by decide +kernel

theorem maskWords_sub (mask : Nat) (vs : List (Bool × V3 × Part)) : ∀ v ∈ maskWords mask vs, v ∈ vs := by
  induction vs generalizing mask with
  | nil => intro v hv; cases hv
  | cons w vs ih =>
    intro v hv
    unfold maskWords at hv
    cases hb : Nat.beq (mask % 2) 1 with
    | true =>
      rw [hb, cond_true] at hv
      rcases List.mem_cons.1 hv with rfl | hv
      · exact List.mem_cons_self ..
      · exact List.mem_cons_of_mem _ (ih _ v hv)
    | false =>
      rw [hb, cond_false] at hv
      exact List.mem_cons_of_mem _ (ih _ v hv)

/-- The certificate of a checked row. -/
theorem rowCheck_cert {row : Row} (h : rowCheck functionals row = true) {n : HallSymbolNotation} {ms : List M4}
    (hp : parseHallSymbol row.hall.toList = some (n, [])) (hms : n.seitzMatrices = some ms) :
    Described n (certList n ms) := by
  unfold rowCheck at h
  split at h
  · rename_i n0 n' cc hp0 hp' hcc
    rw [hp] at hp0
    obtain rfl : n = n0 := by simpa using hp0
    split at h
    · rename_i ms0 ms' hms0 hms'
      rw [hms] at hms0
      obtain rfl := Option.some.inj hms0
      simp only [rowCheck2, Bool.and_eq_true] at h
      exact described_certList hms h.1.1.1.1.1.1.1.1.1.1
    · cases h
  · cases h

theorem holohedral_of_fits (hd : Described n L) (h : ∀ r ∈ PointGroup n, FitsFirstSymbol n r) : Holohedral L := by
  intro m hm
  exact fits_holohedry (h m.rot (by rw [hd.pointGroup]; exact ⟨m, hm, rfl⟩))

theorem NameRow.check_sound {row : NameRow} (hc : row.check = true) {r : Row} (hr : r ∈ allRows) (e : r.hall = row.hall)
    (hp : parseHallSymbol row.hall.toList = some (n, [])) : ∃ nm, NameFacts row n nm := by
  have hok := List.all_eq_true.1 allRows_ok r hr
  obtain ⟨n0, n', L, cc, hf⟩ := rowCheck_sound hok
  have hp0 := hf.parsed
  rw [e, hp] at hp0
  obtain rfl : n = n0 := by simpa using hp0
  unfold NameRow.check at hc
  rw [hp] at hc
  simp only [] at hc
  split at hc
  · rename_i ms nm hms hnm
    have hd := rowCheck_cert hok (by rw [e]; exact hp) hms
    have hL := holohedral_of_fits hd hf.fits
    simp only [Bool.and_eq_true, Nat.beq_eq, List.all_eq_true, Bool.not_eq_true'] at hc
    obtain ⟨⟨h1, h2⟩, h3⟩ := hc
    refine ⟨nm, hnm, ?_, h2, ?_⟩
    · intro hk
      rw [hk, cond_true] at h1
      exact fitsNameB_sound hd hL h1
    · intro nm' hne hfit
      obtain ⟨v, hv, h4, h5⟩ := mask_go_words_mem nm' vocab _ hne
      have h6 := hfit.present _ h5
      rw [present_system, ← h4] at h6
      have hval := List.all_eq_true.1 vocab_valid v (maskWords_sub _ _ v hv)
      have := (presentB_iff hd hL hval).2 h6
      rw [h3 v hv] at this
      cases this
  · cases hc

/-- The name cannot be read, or its rotations do not generate those of the group, or a symbol has no operation. -/
def misfitB (hall name : String) : Bool :=
  match readName name.toList with
  | none => true
  | some nm =>
    match parseHallSymbol hall.toList with
    | some (n, []) =>
      match n.seitzMatrices with
      | some ms =>
        turnsOnlyB nm (certList n ms) || notGeneratedB nm (certList n ms) ||
          nm.valid && nm.parts.any fun e => ! presentB n.latticeSymbol (certList n ms) nm.system e.1 e.2
      | none => false
    | _ => false

theorem misfitB_sound {hall name : String} (h : misfitB hall name = true) {r : Row} (hr : r ∈ allRows) (e : r.hall = hall)
    (hp : parseHallSymbol hall.toList = some (n, [])) : ¬ Names name n := by
  rintro ⟨nm, hnm, hfit⟩
  have hok := List.all_eq_true.1 allRows_ok r hr
  obtain ⟨n0, n', L, cc, hf⟩ := rowCheck_sound hok
  have hp0 := hf.parsed
  rw [e, hp] at hp0
  obtain rfl : n = n0 := by simpa using hp0
  unfold misfitB at h
  rw [hnm, hp] at h
  simp only [] at h
  split at h
  · rename_i ms hms
    have hd := rowCheck_cert hok (by rw [e]; exact hp) hms
    have hL := holohedral_of_fits hd hf.fits
    simp only [Bool.or_eq_true, Bool.and_eq_true, List.any_eq_true, Bool.not_eq_true'] at h
    rcases h with (h | h) | ⟨hv, q, hq, h⟩
    · exact turnsOnlyB_sound hd h hfit
    · exact notGeneratedB_sound hd hL h hfit
    · have hv' : q.2.valid = true := List.all_eq_true.1 hv q hq
      have := (presentB_iff hd hL hv').2 (hfit.present q hq)
      rw [h] at this
      cases this
  · cases h

/-! ## A name that fits two groups -/

theorem keeps_holohedral {sys : System} {r : M3} (h : sys.Keeps r) : r ∈ cubicList ∨ r ∈ hexList := by
  rw [← cubic_iff_mem, ← hexagonal_iff_mem]
  have add : ∀ a b : M3, (r.transpose.mul a).mul r = a → (r.transpose.mul b).mul r = b →
      (r.transpose.mul (a.add b)).mul r = a.add b := by
    intro a b ha hb
    have : (r.transpose.mul (a.add b)).mul r = ((r.transpose.mul a).mul r).add ((r.transpose.mul b).mul r) := by
      ext <;> simp only [M3.mul, M3.add, M3.transpose] <;> ring
    rw [this, ha, hb]
  have one : ∀ a : M3, a = M3.one → (r.transpose.mul a).mul r = a → r.Cubic := by
    rintro _ rfl h
    unfold M3.Cubic
    rwa [M3.mul_one] at h
  have diag : (r.transpose.mul ⟨1, 0, 0, 0, 0, 0, 0, 0, 0⟩).mul r = ⟨1, 0, 0, 0, 0, 0, 0, 0, 0⟩ →
      (r.transpose.mul ⟨0, 0, 0, 0, 1, 0, 0, 0, 0⟩).mul r = ⟨0, 0, 0, 0, 1, 0, 0, 0, 0⟩ →
      (r.transpose.mul ⟨0, 0, 0, 0, 0, 0, 0, 0, 1⟩).mul r = ⟨0, 0, 0, 0, 0, 0, 0, 0, 1⟩ → r.Cubic := by
    intro ha hb hc
    exact one _ (by decide) (add _ _ (add _ _ ha hb) hc)
  have tetr : (r.transpose.mul ⟨1, 0, 0, 0, 1, 0, 0, 0, 0⟩).mul r = ⟨1, 0, 0, 0, 1, 0, 0, 0, 0⟩ →
      (r.transpose.mul ⟨0, 0, 0, 0, 0, 0, 0, 0, 1⟩).mul r = ⟨0, 0, 0, 0, 0, 0, 0, 0, 1⟩ → r.Cubic :=
    fun ha hb => one _ (by decide) (add _ _ ha hb)
  have hexa : (r.transpose.mul ⟨2, -1, 0, -1, 2, 0, 0, 0, 0⟩).mul r = ⟨2, -1, 0, -1, 2, 0, 0, 0, 0⟩ →
      (r.transpose.mul ⟨0, 0, 0, 0, 0, 0, 0, 0, 1⟩).mul r = ⟨0, 0, 0, 0, 0, 0, 0, 0, 1⟩ → r.Hexagonal := by
    intro ha hb
    have h := add _ _ ha hb
    have e : M3.add ⟨2, -1, 0, -1, 2, 0, 0, 0, 0⟩ ⟨0, 0, 0, 0, 0, 0, 0, 0, 1⟩ = hexMetric := by decide
    rw [e] at h
    exact h
  unfold System.Keeps at h
  cases sys with
  | triclinic => exact .inl (diag (h _ (by simp [System.metrics])) (h _ (by simp [System.metrics])) (h _ (by simp [System.metrics])))
  | monoclinic u => exact .inl (diag (h _ (by simp [System.metrics])) (h _ (by simp [System.metrics])) (h _ (by simp [System.metrics])))
  | orthorhombic => exact .inl (diag (h _ (by simp [System.metrics])) (h _ (by simp [System.metrics])) (h _ (by simp [System.metrics])))
  | tetragonal => exact .inl (tetr (h _ (by simp [System.metrics])) (h _ (by simp [System.metrics])))
  | hexagonal => exact .inr (hexa (h _ (by simp [System.metrics])) (h _ (by simp [System.metrics])))
  | rhombohedral => exact .inl (one ⟨1, 0, 0, 0, 1, 0, 0, 0, 1⟩ (by decide) (h _ (by simp [System.metrics])))
  | cubic => exact .inl (one ⟨1, 0, 0, 0, 1, 0, 0, 0, 1⟩ (by decide) (h _ (by simp [System.metrics])))

/-- The cells. -/
def systems : List System :=
  [.triclinic, .monoclinic 0, .monoclinic 1, .monoclinic 2, .orthorhombic, .tetragonal, .hexagonal, .rhombohedral, .cubic]

theorem mem_systems (sys : System) : sys ∈ systems := by
  cases sys with
  | monoclinic u => revert u; decide
  | _ => decide

/-- Symmetries of a cubic or a hexagonal cell. -/
def candidates : List M3 := cubicList ++ hexList.filter fun r => ! memB r cubicList

/-- The symmetries of a cell. -/
def cellList (sys : System) : List M3 := candidates.filter sys.keepsB

theorem mem_cellList {sys : System} {r : M3} (h : sys.Keeps r) : r ∈ cellList sys := by
  simp only [cellList, candidates, List.mem_filter, List.mem_append, System.keepsB_iff, h, and_true, Bool.not_eq_true']
  by_cases hc : r ∈ cubicList
  · exact .inl hc
  · refine .inr ⟨(keeps_holohedral h).resolve_left hc, ?_⟩
    rw [← Bool.not_eq_true, memB_iff]
    exact hc

theorem turn_unique_check : systems.all (fun sys => [x, y, z, xy, xyz].all fun d => [1, 2, 3, 4, 6].all fun k =>
    Nat.ble ((cellList sys).filter (turnB d k)).length 1) = true := by decide +kernel

theorem System.keeps_neg {sys : System} {r : M3} (h : sys.Keeps r) : sys.Keeps r.neg := by
  intro g hg
  have := h g hg
  rw [← this]
  conv_rhs => rw [← this]
  ext <;> simp only [M3.mul, M3.transpose, M3.neg, M3.map] <;> ring

/-- At most one symmetry of a cell is the turn about a direction. -/
theorem turn_unique {sys : System} {d : V3} (hd : d ∈ [x, y, z, xy, xyz]) {k : Nat} (hk : k ∈ [1, 2, 3, 4, 6]) {r r' : M3}
    (hr : sys.Keeps r) (hr' : sys.Keeps r') (h : Turn d k r) (h' : Turn d k r') : r = r' := by
  have hc := List.all_eq_true.1 (List.all_eq_true.1 (List.all_eq_true.1 turn_unique_check sys (mem_systems sys)) d hd) k hk
  rw [Nat.ble_eq] at hc
  have hk' : (rotKind k).isSome = true := by
    have : ∀ k ∈ [1, 2, 3, 4, 6], (rotKind k).isSome = true := by decide
    exact this k hk
  have mem : ∀ {r : M3}, sys.Keeps r → Turn d k r → r ∈ (cellList sys).filter (turnB d k) := by
    intro r hr h
    exact List.mem_filter.2 ⟨mem_cellList hr, (turnB_iff (holohedral_finite (keeps_holohedral hr)) hk').2 h⟩
  have h1 := mem hr h
  have h2 := mem hr' h'
  match hl : (cellList sys).filter (turnB d k) with
  | [] => rw [hl] at h1; cases h1
  | [a] => rw [hl, List.mem_singleton] at h1 h2; rw [h1, h2]
  | a :: b :: l => rw [hl] at hc; simp at hc

theorem linear_unique {sys : System} {d : V3} (hd : d ∈ [x, y, z, xy, xyz]) {p : Part} (hp : p.valid = true) {r r' : M3}
    (hr : sys.Keeps r) (hr' : sys.Keeps r') (h : p.Linear d r) (h' : p.Linear d r') : r = r' := by
  have negInj : r.neg = r'.neg → r = r' := by
    intro e
    simp only [M3.neg, M3.map, M3.mk.injEq, neg_inj] at e
    exact M3.ext e.1 e.2.1 e.2.2.1 e.2.2.2.1 e.2.2.2.2.1 e.2.2.2.2.2.1 e.2.2.2.2.2.2.1 e.2.2.2.2.2.2.2.1 e.2.2.2.2.2.2.2.2
  cases p with
  | axis k s => exact turn_unique hd (rotKind_mem hp) hr hr' h h'
  | bar k => exact negInj (turn_unique hd (rotKind_mem hp) (System.keeps_neg hr) (System.keeps_neg hr') h h')
  | plane g => exact negInj (turn_unique hd (k := 2) (by decide) (System.keeps_neg hr) (System.keeps_neg hr') h h')

/-! ## Names that have been read -/

theorem readSimple_valid {w : List Char} {ps : List Part} (h : readSimple w = some ps) : ∀ p ∈ ps, p.valid = true := by
  unfold readSimple at h
  split at h <;> cases h <;> decide

theorem readPart_valid {w : List Char} {ps : List Part} (h : readPart w = some ps) : ∀ p ∈ ps, p.valid = true := by
  unfold readPart at h
  split at h
  · exact readSimple_valid h
  · split at h
    · rename_i hx hy
      cases h
      intro p hp
      exact (List.mem_append.1 hp).elim (readSimple_valid hx p) (readSimple_valid hy p)
    · cases h

theorem readParts_valid {ds : List V3} {ws : List (List Char)} {ps : List (V3 × Part)} (h : readParts ds ws = some ps) :
    ∀ e ∈ ps, e.1 ∈ ds ∧ e.2.valid = true := by
  induction ws generalizing ds ps with
  | nil =>
    cases ds <;> (unfold readParts at h; cases h; intro e he; cases he)
  | cons w ws ih =>
    cases ds with
    | nil => unfold readParts at h; cases h
    | cons d ds =>
      unfold readParts at h
      split at h
      · rename_i qs rest hq hr
        cases h
        intro e he
        rcases List.mem_append.1 he with he | he
        · obtain ⟨p, hp, rfl⟩ := List.mem_map.1 he
          exact ⟨List.mem_cons_self .., readPart_valid hq p hp⟩
        · obtain ⟨h1, h2⟩ := ih hr e he
          exact ⟨List.mem_cons_of_mem _ h1, h2⟩
      · cases h

theorem directions_sub {rh : Bool} {ws : List (List Char)} {sys : System} {ds : List V3}
    (h : directions rh ws = some (sys, ds)) : ∀ d ∈ ds, d ∈ [x, y, z, xy, xyz] := by
  unfold directions at h
  repeat' split at h
  all_goals first | cases h; done | (cases h; decide)

theorem readName_parts {name : List Char} {nm : Name} (h : readName name = some nm) :
    ∀ e ∈ nm.parts, e.1 ∈ [x, y, z, xy, xyz] ∧ e.2.valid = true := by
  unfold readName at h
  dsimp only at h
  split at h
  · split at h
    · rename_i sys ds hds
      split at h
      · rename_i ps hps
        cases h
        intro e he
        obtain ⟨h1, h2⟩ := readParts_valid hps e he
        exact ⟨directions_sub hds _ h1, h2⟩
      · cases h
    · cases h
  · cases h

/-- The rotations of a group form a monoid. -/
theorem pointGroup_mul {a b : M3} (ha : a ∈ PointGroup n) (hb : b ∈ PointGroup n) : a.mul b ∈ PointGroup n := by
  obtain ⟨f, hf, m, rfl, rfl⟩ := ha
  obtain ⟨g, hg, m', rfl, rfl⟩ := hb
  exact ⟨_, hf.comp hg, _, rfl, M4.act_comp m m'⟩

theorem pointGroup_one : M3.one ∈ PointGroup n :=
  ⟨id, .one, M4.one, rfl, (M4.act_mk_one _ _ _ rfl).symm⟩

theorem Fits.pointGroup_le {nm : Name} (hu : ∀ e ∈ nm.parts, e.1 ∈ [x, y, z, xy, xyz] ∧ e.2.valid = true) (h : Fits nm n)
    (h' : Fits nm n') :
    PointGroup n ⊆ PointGroup n' := by
  have sub : ∀ r ∈ Named nm n, r ∈ PointGroup n' := by
    rintro r ⟨hr, e, he, hl⟩
    obtain ⟨m, hm, hl', _⟩ := h'.present e he
    have hm' : m.rot ∈ PointGroup n' := ⟨_, hm, m, rfl, rfl⟩
    rw [linear_unique (hu e he).1 (hu e he).2 (h.cell r hr) (h'.cell _ hm') hl hl']
    exact hm'
  intro r hr
  have := h.generated r hr
  clear hr
  induction this with
  | one => exact pointGroup_one
  | mul _ hg ih => exact pointGroup_mul ih (sub _ hg)

theorem Fits.lattice_eq {nm : Name} (hd : Consistent n) (hd' : Consistent n') (h : Fits nm n) (h' : Fits nm n') :
    n.latticeSymbol.char = n'.latticeSymbol.char := by
  have key : ∀ {n n' : HallSymbolNotation}, Consistent n' → Fits nm n → Fits nm n' →
      ∀ v ∈ n.latticeSymbol.translations, LatCong n'.latticeSymbol v V3.zero := by
    intro n n' hn' h h' v hv
    have ht : IsTranslation (fun p : Pt => p.addTwelfths v) := ⟨⟨v.x / 12, v.y / 12, v.z / 12⟩, fun p => rfl⟩
    have h1 := (h'.lattice _ ht).2 ((h.lattice _ ht).1 (SpaceGroup.centring (n := n) hv))
    have h2 := hn' _ h1 ht
    rw [← trMat_act, isLatticeTranslation_iff] at h2
    exact h2
  have k1 := key hd' h h'
  have k2 := key hd h' h
  unfold LatCong LatticeSymbol.translations at k1 k2
  revert k1 k2
  generalize n.latticeSymbol.char = c
  generalize n'.latticeSymbol.char = c'
  cases c <;> cases c' <;> decide +kernel

/-- The part of a key that tells lattice and rotations. -/
def classKey (key : Nat) : Nat := key % (7 * 2 ^ 64)

theorem classKey_eq {t : FunctionalTable} (hd : Described n L) (hd' : Described n' L')
    (hc : n.latticeSymbol.char = n'.latticeSymbol.char) (hp : PointGroup n = PointGroup n') :
    classKey (groupKey t n L) = classKey (groupKey t n' L') := by
  have hk : rotsKey L = rotsKey L' := by
    unfold rotsKey
    exact ((hd.perm hd' hp).map _).sum_eq
  unfold classKey groupKey
  simp only [hc, hk]
  generalize ((t.find _ _).map _).foldl _ 0 = a
  generalize ((t.find _ _).map _).foldl _ 0 = b
  generalize rotsKey L' = k
  generalize latticeIndex _ = c
  have e : ∀ a, ((a * 2 ^ 64 + k) * 7 + c) % (7 * 2 ^ 64) = (k * 7 + c) % (7 * 2 ^ 64) := by
    intro a
    rw [show (a * 2 ^ 64 + k) * 7 + c = (k * 7 + c) + (7 * 2 ^ 64) * a by ring, Nat.add_mul_mod_self_left]
  rw [e, e]

end Verif.HM
