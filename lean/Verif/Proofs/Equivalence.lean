import Verif.Proofs.Rows

/-! # Checking that two described groups are related by a change of basis -/

namespace Verif

/-- The change of basis `X ↦ (A X + q)/d` of coordinates `X` counted in twelfths. -/
structure Move where
  a : M3
  q : V3
  d : Nat

/-- The map on points. -/
def Move.map (c : Move) : Pt → Pt := changeOfBasis c.a c.d ⟨c.q.x / (12 * c.d), c.q.y / (12 * c.d), c.q.z / (12 * c.d)⟩

/-- `u` is `d` times a lattice vector plus `d` times `b`. -/
def scaledLatB (l : LatticeSymbol) (d : Nat) (u b : V3) : Bool :=
  l.translations.any fun v =>
    ((u.x - d * (b.x + v.x)) % (12 * d) == 0) && ((u.y - d * (b.y + v.y)) % (12 * d) == 0)
      && ((u.z - d * (b.z + v.z)) % (12 * d) == 0)

theorem scaledLatB_iff {l : LatticeSymbol} {d : Nat} {u b : V3} (h : scaledLatB l d u b = true) :
    ∃ w : V3, u = V3.smul d w ∧ LatCong l w b := by
  unfold scaledLatB at h
  obtain ⟨v, hv, hh⟩ := List.any_eq_true.1 h
  simp only [Bool.and_eq_true, beq_iff_eq] at hh
  obtain ⟨⟨h1, h2⟩, h3⟩ := hh
  obtain ⟨k1, e1⟩ := Int.dvd_of_emod_eq_zero h1
  obtain ⟨k2, e2⟩ := Int.dvd_of_emod_eq_zero h2
  obtain ⟨k3, e3⟩ := Int.dvd_of_emod_eq_zero h3
  refine ⟨⟨b.x + v.x + 12 * k1, b.y + v.y + 12 * k2, b.z + v.z + 12 * k3⟩, ?_, v, hv, ?_⟩
  · ext <;> simp only [V3.smul] <;> linarith
  · refine ⟨?_, ?_, ?_⟩ <;> simp only [V3.add_x, V3.add_y, V3.add_z] <;> omega

/-- The first listed operation whose rotation is `r` in the new basis. -/
def findConj (a : M3) (r : M3) : List M4 → Option M4
  | [] => none
  | h :: L => bif (h.rot.mul a).eqB (a.mul r) then some h else findConj a r L

theorem findConj_some {a r : M3} {L : List M4} {m : M4} (h : findConj a r L = some m) : m ∈ L ∧ m.rot.mul a = a.mul r := by
  induction L with
  | nil => cases h
  | cons b L ih =>
    unfold findConj at h
    cases e : (b.rot.mul a).eqB (a.mul r) with
    | true => rw [e] at h; cases h; exact ⟨List.mem_cons_self .., M3.eqB_iff.1 e⟩
    | false => rw [e] at h; exact ⟨List.mem_cons_of_mem _ (ih h).1, (ih h).2⟩

/-- Every generator of the first group is, in the new coordinates, an operation of the second. -/
def moveCheck (c : Move) (n : HallSymbolNotation) (ms : List M4) (n' : HallSymbolNotation) (L' : List M4) : Bool :=
  (n.gens ms).all (fun g =>
    match findConj c.a g.rot L' with
    | none => false
    | some h => scaledLatB n'.latticeSymbol c.d (((c.a.mulVec g.tr).add c.q).sub (h.rot.mulVec c.q)) h.tr) &&
  (([⟨12, 0, 0⟩, ⟨0, 12, 0⟩, ⟨0, 0, 12⟩] : List V3) ++ n.latticeSymbol.translations).all fun t =>
    scaledLatB n'.latticeSymbol c.d (c.a.mulVec t) V3.zero

theorem move_act {c : Move} (hd : 0 < c.d) {g h : M4} (hr : h.rot.mul c.a = c.a.mul g.rot)
    (ht : (c.a.mulVec g.tr).add c.q = (h.rot.mulVec c.q).add (V3.smul c.d h.tr)) :
    c.map ∘ g.act = h.act ∘ c.map := by
  have hd' : (c.d : ℚ) ≠ 0 := by exact_mod_cast hd.ne'
  have tx := congrArg (fun v : V3 => (v.x : ℚ)) ht
  have ty := congrArg (fun v : V3 => (v.y : ℚ)) ht
  have tz := congrArg (fun v : V3 => (v.z : ℚ)) ht
  have r11 := congrArg (fun v : M3 => (v.m11 : ℚ)) hr
  have r12 := congrArg (fun v : M3 => (v.m12 : ℚ)) hr
  have r13 := congrArg (fun v : M3 => (v.m13 : ℚ)) hr
  have r21 := congrArg (fun v : M3 => (v.m21 : ℚ)) hr
  have r22 := congrArg (fun v : M3 => (v.m22 : ℚ)) hr
  have r23 := congrArg (fun v : M3 => (v.m23 : ℚ)) hr
  have r31 := congrArg (fun v : M3 => (v.m31 : ℚ)) hr
  have r32 := congrArg (fun v : M3 => (v.m32 : ℚ)) hr
  have r33 := congrArg (fun v : M3 => (v.m33 : ℚ)) hr
  simp only [M3.mul, M3.mulVec, V3.add_x, V3.add_y, V3.add_z, V3.smul] at *
  push_cast at *
  funext p
  simp only [Function.comp_apply, Move.map, changeOfBasis, M4.act]
  ext
  · simp only []
    field_simp
    linear_combination tx - 12 * (p.x * r11 + p.y * r12 + p.z * r13)
  · simp only []
    field_simp
    linear_combination ty - 12 * (p.x * r21 + p.y * r22 + p.z * r23)
  · simp only []
    field_simp
    linear_combination tz - 12 * (p.x * r31 + p.y * r32 + p.z * r33)

/-- The vector `t` is a lattice vector of the new lattice. -/
def MovesTo (c : Move) (l : LatticeSymbol) (t : V3) : Prop := ∃ w : V3, c.a.mulVec t = V3.smul c.d w ∧ LatCong l w V3.zero

theorem MovesTo.add {c : Move} {l : LatticeSymbol} {s t : V3} (hs : MovesTo c l s) (ht : MovesTo c l t) :
    MovesTo c l (s.add t) := by
  obtain ⟨u, e1, h1⟩ := hs
  obtain ⟨v, e2, h2⟩ := ht
  refine ⟨u.add v, ?_, ?_⟩
  · rw [M3.mulVec_add, e1, e2]
    ext <;> simp [V3.smul] <;> ring
  · have := h1.add h2
    rwa [V3.zero_add] at this

theorem MovesTo.zero (c : Move) (l : LatticeSymbol) : MovesTo c l V3.zero :=
  ⟨V3.zero, by rw [M3.mulVec_zero]; ext <;> simp [V3.smul, V3.zero], .refl _ _⟩

theorem MovesTo.neg {c : Move} {l : LatticeSymbol} {t : V3} (h : MovesTo c l t) : MovesTo c l (V3.smul (-1) t) := by
  obtain ⟨w, e, h⟩ := h
  refine ⟨V3.smul (-1) w, ?_, ?_⟩
  · have : c.a.mulVec (V3.smul (-1) t) = V3.smul (-1) (c.a.mulVec t) := by
      ext <;> simp [M3.mulVec, V3.smul] <;> ring
    rw [this, e]
    ext <;> simp [V3.smul]
  · obtain ⟨v, hv, h1, h2, h3⟩ := h.symm
    refine ⟨v, hv, ?_⟩
    simp only [V3.add_x, V3.add_y, V3.add_z, V3.zero] at h1 h2 h3
    refine ⟨?_, ?_, ?_⟩ <;> simp only [V3.add_x, V3.add_y, V3.add_z, V3.zero, V3.smul] <;> omega

theorem MovesTo.nsmul {c : Move} {l : LatticeSymbol} {t : V3} (h : MovesTo c l t) (k : Nat) :
    MovesTo c l (V3.smul k t) := by
  induction k with
  | zero =>
    have : V3.smul (0 : Nat) t = V3.zero := by ext <;> simp [V3.smul, V3.zero]
    rw [this]; exact .zero c l
  | succ k ih =>
    have : V3.smul ((k + 1 : Nat) : Int) t = (V3.smul k t).add t := by
      ext <;> simp only [V3.smul, V3.add_x, V3.add_y, V3.add_z] <;> push_cast <;> ring
    rw [this]; exact ih.add h

theorem MovesTo.zsmul {c : Move} {l : LatticeSymbol} {t : V3} (h : MovesTo c l t) (k : Int) :
    MovesTo c l (V3.smul k t) := by
  rcases Int.eq_nat_or_neg k with ⟨j, rfl | rfl⟩
  · exact h.nsmul j
  · have : V3.smul (-(j : Int)) t = V3.smul (-1) (V3.smul j t) := by
      ext <;> simp [V3.smul]
    rw [this]; exact (h.nsmul j).neg

/-- What a successful check means. -/
theorem moveCheck_sound {c : Move} (hd : 0 < c.d) {n n' : HallSymbolNotation} {ms L' : List M4}
    (hms : n.seitzMatrices = some ms) (hL' : ∀ m ∈ L', m.Affine ∧ InGroup n' m) (h : moveCheck c n ms n' L' = true)
    {f : Pt → Pt} (hf : SpaceGroup n f) : ∃ f', SpaceGroup n' f' ∧ c.map ∘ f = f' ∘ c.map := by
  simp only [moveCheck, Bool.and_eq_true, List.all_eq_true] at h
  obtain ⟨hg, hl⟩ := h
  have hl' : ∀ t ∈ ([⟨12, 0, 0⟩, ⟨0, 12, 0⟩, ⟨0, 0, 12⟩] : List V3) ++ n.latticeSymbol.translations,
      MovesTo c n'.latticeSymbol t := fun t ht => scaledLatB_iff (hl t ht)
  have htr : ∀ t, MovesTo c n'.latticeSymbol t → ∃ f', SpaceGroup n' f' ∧ c.map ∘ (trMat t).act = f' ∘ c.map := by
    rintro t ⟨w, e, hw⟩
    refine ⟨(trMat w).act, SpaceGroup.lattice ((isLatticeTranslation_iff _ _).2 hw), ?_⟩
    apply move_act hd
    · simp only [trMat, M3.mul_one, M3.one_mul]
    · simp only [trMat, M3.one_mulVec, e]
      ext <;> simp [V3.smul] <;> ring
  have hgen : ∀ g ∈ n.gens ms, ∃ f', SpaceGroup n' f' ∧ c.map ∘ g.act = f' ∘ c.map := by
    intro g hgm
    have h1 := hg g hgm
    cases hc : findConj c.a g.rot L' with
    | none => rw [hc] at h1; cases h1
    | some b =>
      rw [hc] at h1
      obtain ⟨hb, hr⟩ := findConj_some hc
      obtain ⟨w, e, hw⟩ := scaledLatB_iff h1
      refine ⟨M4.act ⟨b.rot, w, b.bot, b.w⟩, inGroup_latStable n' b w (hL' b hb).1 (hL' b hb).2 hw, ?_⟩
      apply move_act (h := ⟨b.rot, w, b.bot, b.w⟩) hd hr
      simp only []
      rw [← e]
      ext <;> simp
  induction hf with
  | one => exact ⟨id, .one, rfl⟩
  | cell k =>
    rw [cell_act]
    apply htr
    have : V3.smul 12 k = ((V3.smul k.x ⟨12, 0, 0⟩).add (V3.smul k.y ⟨0, 12, 0⟩)).add (V3.smul k.z ⟨0, 0, 12⟩) := by
      ext <;> simp [V3.smul] <;> ring
    rw [this]
    exact (((hl' _ (by simp)).zsmul _).add ((hl' _ (by simp)).zsmul _)).add ((hl' _ (by simp)).zsmul _)
  | @centring v hv =>
    rw [← trMat_act]
    exact htr v (hl' v (List.mem_append_right _ hv))
  | inversion hm =>
    rw [inversion_act]
    exact hgen M4.inversion (by unfold HallSymbolNotation.gens; rw [if_pos hm]; simp)
  | @generator s g hs hsg =>
    rw [shifted_act]
    obtain ⟨g', hg', e⟩ := (seitzMatrices_mem hms).2 s hs
    rw [hsg] at e
    obtain rfl := Option.some.inj e
    exact hgen _ (List.mem_append_right _ (List.mem_map.2 ⟨g, hg', rfl⟩))
  | comp h1 h2 ih1 ih2 =>
    obtain ⟨f1, g1, e1⟩ := ih1
    obtain ⟨f2, g2, e2⟩ := ih2
    refine ⟨f1 ∘ f2, g1.comp g2, ?_⟩
    rw [← Function.comp_assoc, e1, Function.comp_assoc, e2, Function.comp_assoc]
  | @inv f g h0 h1 h2 ih =>
    obtain ⟨f', g', e'⟩ := ih
    obtain ⟨m, rfl, _, hu⟩ := g'.isOp
    have i1 := M4.act_uinv hu
    have i2 := M4.uinv_act hu
    refine ⟨m.uinv.act, g'.inv i1 i2, ?_⟩
    calc c.map ∘ g = (m.uinv.act ∘ m.act) ∘ c.map ∘ g := by rw [i2]; rfl
      _ = m.uinv.act ∘ (m.act ∘ c.map) ∘ g := rfl
      _ = m.uinv.act ∘ (c.map ∘ f) ∘ g := by rw [e']
      _ = m.uinv.act ∘ c.map ∘ (f ∘ g) := rfl
      _ = m.uinv.act ∘ c.map := by rw [h1]; rfl

/-- `e` undoes `c`. -/
def inverseCheck (c e : Move) : Bool :=
  Nat.blt 0 c.d && Nat.blt 0 e.d && decide (0 < c.a.det) &&
  (c.a.mul e.a).eqB (M3.one.map fun v => v * (c.d * e.d)) && (e.a.mul c.a).eqB (M3.one.map fun v => v * (c.d * e.d)) &&
  decide ((c.a.mulVec e.q).add (V3.smul e.d c.q) = V3.zero) && decide ((e.a.mulVec c.q).add (V3.smul c.d e.q) = V3.zero)

theorem map_map {c e : Move} (hc : 0 < c.d) (he : 0 < e.d)
    (h1 : c.a.mul e.a = M3.one.map fun v => v * (c.d * e.d)) (h2 : (c.a.mulVec e.q).add (V3.smul e.d c.q) = V3.zero) :
    c.map ∘ e.map = id := by
  have hc' : (c.d : ℚ) ≠ 0 := by exact_mod_cast hc.ne'
  have he' : (e.d : ℚ) ≠ 0 := by exact_mod_cast he.ne'
  have tx := congrArg (fun v : V3 => (v.x : ℚ)) h2
  have ty := congrArg (fun v : V3 => (v.y : ℚ)) h2
  have tz := congrArg (fun v : V3 => (v.z : ℚ)) h2
  have r11 := congrArg (fun v : M3 => (v.m11 : ℚ)) h1
  have r12 := congrArg (fun v : M3 => (v.m12 : ℚ)) h1
  have r13 := congrArg (fun v : M3 => (v.m13 : ℚ)) h1
  have r21 := congrArg (fun v : M3 => (v.m21 : ℚ)) h1
  have r22 := congrArg (fun v : M3 => (v.m22 : ℚ)) h1
  have r23 := congrArg (fun v : M3 => (v.m23 : ℚ)) h1
  have r31 := congrArg (fun v : M3 => (v.m31 : ℚ)) h1
  have r32 := congrArg (fun v : M3 => (v.m32 : ℚ)) h1
  have r33 := congrArg (fun v : M3 => (v.m33 : ℚ)) h1
  simp only [M3.mul, M3.map, M3.one, M3.mulVec, V3.add_x, V3.add_y, V3.add_z, V3.smul, V3.zero] at *
  push_cast at *
  funext p
  simp only [Function.comp_apply, Move.map, changeOfBasis, id]
  ext
  · simp only []
    field_simp
    linear_combination tx + 12 * (p.x * r11 + p.y * r12 + p.z * r13)
  · simp only []
    field_simp
    linear_combination ty + 12 * (p.x * r21 + p.y * r22 + p.z * r23)
  · simp only []
    field_simp
    linear_combination tz + 12 * (p.x * r31 + p.y * r32 + p.z * r33)

/-- A pair of inverse moves that pass the checks in both directions relates the two groups exactly. -/
theorem moves_iff {c e : Move} {n n' : HallSymbolNotation} {ms ms' L L' : List M4}
    (hms : n.seitzMatrices = some ms) (hms' : n'.seitzMatrices = some ms')
    (hL : ∀ m ∈ L, m.Affine ∧ InGroup n m) (hL' : ∀ m ∈ L', m.Affine ∧ InGroup n' m)
    (hi : inverseCheck c e = true) (h1 : moveCheck c n ms n' L' = true) (h2 : moveCheck e n' ms' n L = true)
    {f f' : Pt → Pt} (hff : c.map ∘ f = f' ∘ c.map) : SpaceGroup n f ↔ SpaceGroup n' f' := by
  simp only [inverseCheck, Bool.and_eq_true, Nat.blt_eq, decide_eq_true_eq, M3.eqB_iff] at hi
  obtain ⟨⟨⟨⟨⟨⟨hc, he⟩, _⟩, i1⟩, i2⟩, i3⟩, i4⟩ := hi
  have ce := map_map hc he i1 i3
  have ec : e.map ∘ c.map = id := map_map he hc (by rw [i2]; congr 1; funext v; ring) i4
  constructor
  · intro hf
    obtain ⟨g, hg, e1⟩ := moveCheck_sound hc hms hL' h1 hf
    have : f' = g := by
      calc f' = (f' ∘ c.map) ∘ e.map := by rw [Function.comp_assoc, ce]; rfl
        _ = (g ∘ c.map) ∘ e.map := by rw [← hff, e1]
        _ = g := by rw [Function.comp_assoc, ce]; rfl
    rw [this]; exact hg
  · intro hf'
    obtain ⟨g, hg, e1⟩ := moveCheck_sound he hms' hL h2 hf'
    have : f = g := by
      calc f = e.map ∘ (c.map ∘ f) := by rw [← Function.comp_assoc, ec]; rfl
        _ = (e.map ∘ f') ∘ c.map := by rw [hff]; rfl
        _ = g ∘ (e.map ∘ c.map) := by rw [e1]; rfl
        _ = g := by rw [ec]; rfl
    rw [this]; exact hg

theorem sameType_of_moves {c e : Move} {n n' : HallSymbolNotation} {ms ms' L L' : List M4}
    (hms : n.seitzMatrices = some ms) (hms' : n'.seitzMatrices = some ms')
    (hL : ∀ m ∈ L, m.Affine ∧ InGroup n m) (hL' : ∀ m ∈ L', m.Affine ∧ InGroup n' m)
    (hi : inverseCheck c e = true) (h1 : moveCheck c n ms n' L' = true) (h2 : moveCheck e n' ms' n L = true) :
    SameType n n' := by
  have hi' := hi
  simp only [inverseCheck, Bool.and_eq_true, Nat.blt_eq, decide_eq_true_eq] at hi'
  exact ⟨c.a, c.d, _, hi'.1.1.1.1.1.1, hi'.1.1.1.1.2, fun f f' hff => moves_iff hms hms' hL hL' hi h1 h2 hff⟩

theorem sameUpToOrigin_of_moves {c e : Move} (ha : c.a = M3.one.map fun v => v * c.d) {n n' : HallSymbolNotation} {ms ms' L L' : List M4}
    (hms : n.seitzMatrices = some ms) (hms' : n'.seitzMatrices = some ms')
    (hL : ∀ m ∈ L, m.Affine ∧ InGroup n m) (hL' : ∀ m ∈ L', m.Affine ∧ InGroup n' m)
    (hi : inverseCheck c e = true) (h1 : moveCheck c n ms n' L' = true) (h2 : moveCheck e n' ms' n L = true) :
    SameUpToOrigin n n' := by
  have hi' := hi
  simp only [inverseCheck, Bool.and_eq_true, Nat.blt_eq, decide_eq_true_eq] at hi'
  have hd' : (c.d : ℚ) ≠ 0 := by exact_mod_cast hi'.1.1.1.1.1.1.ne'
  refine ⟨⟨c.q.x / (12 * c.d), c.q.y / (12 * c.d), c.q.z / (12 * c.d)⟩, fun f =>
    moves_iff hms hms' hL hL' hi h1 h2 ?_⟩
  have hm : ∀ p, c.map p = ⟨p.x + c.q.x / (12 * c.d), p.y + c.q.y / (12 * c.d), p.z + c.q.z / (12 * c.d)⟩ := by
    intro p
    simp only [Move.map, changeOfBasis, ha, M3.map, M3.one]
    ext <;> simp only [] <;> push_cast <;> field_simp <;> ring
  funext p
  simp only [Function.comp_apply, hm, movedBy]
  ext <;> simp

end Verif
