import Verif.Proofs.ArithClass

/-! # Every group over a checked class is one of its representatives, in other coordinates -/

namespace Verif.Arith

/-- The vector in units of `1/m`. -/
def over (m : Nat) (v : V3) : Pt := Pt.scale (1 / m) v.whole

/-- The value of a combination of the translations. -/
def triAt (C : Tri M3) (v : Tri Pt) : Pt := ((C.a.onPt v.a).plus (C.b.onPt v.b)).plus (C.c.onPt v.c)

/-- Scalar product. -/
def dotQ (k : V3) (p : Pt) : ℚ := k.x * p.x + k.y * p.y + k.z * p.z

/-- The value of a functional. -/
def funAt (f : Tri V3) (v : Tri Pt) : ℚ := dotQ f.a v.a + dotQ f.b v.b + dotQ f.c v.c

theorem funAt_integral {v : Tri Pt} {rs : List (Tri M3)} (h : ∀ r ∈ rs, Integral (triAt r v)) (ks : List V3) :
    ∃ y : Int, funAt (funl ks rs) v = y := by
  induction ks generalizing rs with
  | nil => exact ⟨0, by simp [funl, funAt, dotQ, V3.zero]⟩
  | cons k ks ih =>
    cases rs with
    | nil => exact ⟨0, by simp [funl, funAt, dotQ, V3.zero]⟩
    | cons r rs =>
      obtain ⟨y, hy⟩ := ih (fun r' hr => h r' (List.mem_cons_of_mem _ hr))
      obtain ⟨z, hz⟩ := h r (List.mem_cons_self ..)
      refine ⟨k.x * z.x + k.y * z.y + k.z * z.z + y, ?_⟩
      have e : funAt (funl (k :: ks) (r :: rs)) v = dotQ k (triAt r v) + funAt (funl ks rs) v := by
        simp only [funl, funAt, dotQ, triAt, M3.vecMul, V3.add, M3.onPt, Pt.plus]
        push_cast
        ring
      rw [e, hz, hy]
      simp only [dotQ, V3.whole]
      push_cast
      ring

/-- The sum of the terms. -/
def termSum (n : Nat) (y : Term → ℚ) (i : Nat) : List Term → Pt
  | [] => ⟨0, 0, 0⟩
  | t :: ts => (Pt.scale ((n / t.d : Nat) * y t) (t.e.nth i).whole).plus (termSum n y i ts)

theorem block_at (n : Nat) (rs : List (Tri M3)) (i : Nat) (v : Tri Pt) (ts : List Term) :
    triAt (block n rs i ts) v = termSum n (fun t => funAt (funl t.k rs) v) i ts := by
  induction ts with
  | nil => simp [block, termSum, triAt, m0, M3.onPt, Pt.plus]
  | cons t ts ih =>
    rw [termSum, ← ih]
    simp only [block, triAt, M3.onPt, Pt.plus, M3.add, M3.outer, V3.smul, Pt.scale, V3.whole, funAt, dotQ]
    generalize n / t.d = N
    push_cast
    ext <;> simp only [] <;> ring

/-- The cases cover the terms. -/
theorem cases_cover {n m : Nat} (hn : 0 < n) (hm : 0 < m) {y : Term → ℚ} (ts : List Term)
    (ht : ∀ t ∈ ts, 0 < t.d ∧ n % t.d = 0 ∧ m % t.d = 0) (hy : ∀ t ∈ ts, ∃ k : Int, y t = k) :
    ∃ w ∈ cases m ts,
      Integral (((Pt.scale (1 / n) (termSum n y 0 ts))).plus (Pt.scale (-1) (over m w.a))) ∧
      Integral (((Pt.scale (1 / n) (termSum n y 1 ts))).plus (Pt.scale (-1) (over m w.b))) ∧
      Integral (((Pt.scale (1 / n) (termSum n y 2 ts))).plus (Pt.scale (-1) (over m w.c))) := by
  induction ts with
  | nil =>
    refine ⟨_, List.mem_singleton.2 rfl, ?_, ?_, ?_⟩ <;>
      exact ⟨V3.zero, by simp [termSum, over, Pt.scale, V3.whole, V3.zero, Pt.plus]⟩
  | cons t ts ih =>
    obtain ⟨w, hw, ha, hb, hc⟩ := ih (fun t' h => ht t' (List.mem_cons_of_mem _ h)) (fun t' h => hy t' (List.mem_cons_of_mem _ h))
    obtain ⟨hd, hdn, hdm⟩ := ht t (List.mem_cons_self ..)
    obtain ⟨k, hk⟩ := hy t (List.mem_cons_self ..)
    have hd0 : (t.d : Int) ≠ 0 := by omega
    have ha0 : 0 ≤ k % t.d := Int.emod_nonneg _ hd0
    have ha1 : k % t.d < t.d := Int.emod_lt_of_pos _ (by omega)
    obtain ⟨a, hak⟩ := Int.eq_ofNat_of_zero_le ha0
    obtain ⟨n', hn'⟩ := Nat.dvd_of_mod_eq_zero hdn
    obtain ⟨m', hm'⟩ := Nat.dvd_of_mod_eq_zero hdm
    have q1 : n / t.d = n' := by rw [hn', Nat.mul_div_cancel_left _ hd]
    have q2 : m / t.d = m' := by rw [hm', Nat.mul_div_cancel_left _ hd]
    have hkq : (k : ℚ) = t.d * (k / t.d : Int) + a := by
      have := Int.mul_ediv_add_emod k t.d
      rw [hak] at this
      exact_mod_cast this.symm
    have hdq : (t.d : ℚ) ≠ 0 := by exact_mod_cast hd.ne'
    have hnq : (n' : ℚ) ≠ 0 := by
      rintro h
      have : n' = 0 := by exact_mod_cast h
      rw [this] at hn'; omega
    have hmq : (m' : ℚ) ≠ 0 := by
      rintro h
      have : m' = 0 := by exact_mod_cast h
      rw [this] at hm'; omega
    have step : ∀ (e v : V3) (T : Pt), Integral ((Pt.scale (1 / n) T).plus (Pt.scale (-1) (over m v))) →
        Integral ((Pt.scale (1 / n) ((Pt.scale ((n / t.d : Nat) * y t) e.whole).plus T)).plus
          (Pt.scale (-1) (over m ((V3.smul (a * (m / t.d) : Nat) e).add v)))) := by
      rintro e v T ⟨z, hz⟩
      refine ⟨(V3.smul (k / t.d) e).add z, ?_⟩
      have hx := congrArg Pt.x hz
      have hy' := congrArg Pt.y hz
      have hz' := congrArg Pt.z hz
      rw [q1, q2, hk, hkq]
      simp only [Pt.scale, Pt.plus, over, V3.whole, V3.smul, V3.add] at hx hy' hz' ⊢
      rw [hn', hm'] at hx hy' hz' ⊢
      push_cast at hx hy' hz' ⊢
      generalize ((k / (t.d : Int) : Int) : ℚ) = K at *
      ext <;> simp only []
      · rw [← hx]; field_simp; ring
      · rw [← hy']; field_simp; ring
      · rw [← hz']; field_simp; ring
    refine ⟨_, List.mem_flatMap.2 ⟨a, List.mem_range.2 (by omega), List.mem_map.2 ⟨w, hw, rfl⟩⟩, ?_, ?_, ?_⟩
    · exact step _ _ _ ha
    · exact step _ _ _ hb
    · exact step _ _ _ hc

theorem casesCheck_mem {c : Cls} {ws : List (Tri V3)} {ks : List Cert} (h : casesCheck c ws ks = true) {w : Tri V3}
    (hw : w ∈ ws) : ∃ k, caseCheck c w k = true := by
  induction ws generalizing ks with
  | nil => cases hw
  | cons a ws ih =>
    cases ks with
    | nil => simp [casesCheck] at h
    | cons k ks =>
      simp only [casesCheck, Bool.and_eq_true] at h
      rcases List.mem_cons.1 hw with rfl | hw
      · exact ⟨k, h.1⟩
      · exact ih h.2 hw

theorem isWord_iff {l : List M3} {g : M3} (h : isWord l g = true) : g ∈ l := by
  obtain ⟨r, hr, e⟩ := List.any_eq_true.1 h
  rw [M3.eqB_iff] at e
  exact e ▸ hr

theorem onPt_onPt (a b : M3) (p : Pt) : a.onPt (b.onPt p) = (a.mul b).onPt p := by
  simp only [M3.onPt, M3.mul]
  push_cast
  ext <;> simp only [] <;> ring

theorem one_onPt (p : Pt) : M3.one.onPt p = p := by
  simp only [M3.onPt, M3.one]
  ext <;> simp only [] <;> push_cast <;> ring

theorem onPt_integral {a : M3} {p : Pt} (h : Integral p) : Integral (a.onPt p) := by
  obtain ⟨k, rfl⟩ := h
  refine ⟨a.mulVec k, ?_⟩
  simp only [M3.onPt, V3.whole, M3.mulVec]
  push_cast
  rfl

/-- A row of the splitting. -/
theorem split {g : M3} {n : Nat} (hn : 0 < n) {s b1 b2 b3 : M3} {s2 s3 : M3} {v p2 p3 : Pt}
    (h1 : ((M3.one.sub g).mul s).add b1 = M3.one.map (fun x => x * n)) (h2 : ((M3.one.sub g).mul s2).add b2 = m0)
    (h3 : ((M3.one.sub g).mul s3).add b3 = m0) :
    v = (Pt.plus (Pt.scale (1 / n) (((s.onPt v).plus (s2.onPt p2)).plus (s3.onPt p3)))
      (Pt.scale (-1) (g.onPt (Pt.scale (1 / n) (((s.onPt v).plus (s2.onPt p2)).plus (s3.onPt p3)))))).plus
      (Pt.scale (1 / n) (((b1.onPt v).plus (b2.onPt p2)).plus (b3.onPt p3))) := by
  have hnq : (n : ℚ) ≠ 0 := by exact_mod_cast hn.ne'
  have cast : ∀ {A B : M3}, A = B → ∀ p : Pt, A.onPt p = B.onPt p := fun h p => by rw [h]
  have e1 := cast h1 v
  have e2 := cast h2 p2
  have e3 := cast h3 p3
  simp only [M3.onPt, M3.add, M3.mul, M3.sub, M3.one, M3.map, m0, Pt.mk.injEq] at e1 e2 e3
  push_cast at e1 e2 e3
  simp only [Pt.plus, Pt.scale, M3.onPt]
  ext <;> simp only [] <;> field_simp
  · linear_combination - e1.1 - e2.1 - e3.1
  · linear_combination - e1.2.1 - e2.2.1 - e3.2.1
  · linear_combination - e1.2.2 - e2.2.2 - e3.2.2

theorem integral_congr {p q : Pt} (h : Integral p) (e : p = q) : Integral q := e ▸ h

theorem pt_rot (a b c : Pt) : (a.plus b).plus c = (b.plus c).plus a := by
  simp only [Pt.plus]
  ext <;> simp only [] <;> ring

/-- Every group with the lattice of whole cells and the rotations of a checked class becomes, in other coordinates, a
group that contains the generators of one of the representatives. -/
theorem Cls.sound {c : Cls} (h : c.check = true) {S : (Pt → Pt) → Prop} (hS : SpaceLike S Integral c.grp) :
    ∃ (i : Nat) (u : Tri V3), c.reps[i]? = some u ∧ ∃ S', SameKind S S' ∧ SpaceLike S' Integral c.grp ∧ S' (aff c.gens.a (over c.m u.a)) ∧
      S' (aff c.gens.b (over c.m u.b)) ∧ S' (aff c.gens.c (over c.m u.c)) := by
  unfold Cls.check at h
  simp only [Bool.and_eq_true, List.all_eq_true, Nat.blt_eq, Nat.beq_eq, M3.eqB_iff] at h
  obtain ⟨⟨⟨⟨⟨⟨⟨⟨⟨⟨⟨hnd, wa⟩, wb⟩, wc⟩, hrel⟩, hn⟩, hm⟩, hterm⟩, r0⟩, r1⟩, r2⟩, hcases⟩ := h
  have hnd := nodupB_iff hnd
  have mem : ∀ {g : M3}, isWord (c.words.map (fun w => (sym c.gens w).rot)) g = true → g ∈ c.grp := by
    intro g hg
    obtain ⟨w, hw, e⟩ := List.mem_map.1 (isWord_iff hg)
    exact ⟨w, hw, e⟩
  obtain ⟨va, ha⟩ := hS.all _ (mem wa)
  obtain ⟨vb, hb⟩ := hS.all _ (mem wb)
  obtain ⟨vc, hc⟩ := hS.all _ (mem wc)
  -- the relations
  have hint : ∀ r ∈ c.rels.map (relCo c.gens), Integral (triAt r ⟨va, vb, vc⟩) := by
    intro r hr
    obtain ⟨w, hw, rfl⟩ := List.mem_map.1 hr
    have h1 := sym_mem hS integral_zero (v := ⟨va, vb, vc⟩) ha hb hc w.1
    have h2 := sym_mem hS integral_zero (v := ⟨va, vb, vc⟩) ha hb hc w.2
    rw [← hrel w hw] at h2
    refine hS.diff h1 h2 ?_
    simp only [triAt, relCo, Sym.at, Pt.plus, M3.onPt, M3.sub]
    push_cast
    ext <;> simp only [] <;> ring
  have hy := fun t : Term => funAt_integral hint t.k
  obtain ⟨w, hw, ia, ib, ic⟩ := cases_cover (y := fun t => funAt (funl t.k (c.rels.map (relCo c.gens))) ⟨va, vb, vc⟩) hn hm c.terms
    (fun t ht => ⟨(hterm t ht).1.1, (hterm t ht).1.2, (hterm t ht).2⟩) (fun t _ => hy t)
  rw [← block_at] at ia ib ic
  -- the change of origin
  let s := Pt.scale (1 / c.n) (triAt c.s ⟨va, vb, vc⟩)
  simp only [rowCheck, Bool.and_eq_true, M3.eqB_iff, Tri.nth] at r0 r1 r2
  obtain ⟨⟨a1, a2⟩, a3⟩ := r0
  obtain ⟨⟨b1, b2⟩, b3⟩ := r1
  obtain ⟨⟨c1, c2⟩, c3⟩ := r2
  have ea : va = (Pt.plus s (Pt.scale (-1) (c.gens.a.onPt s))).plus
      (Pt.scale (1 / c.n) (triAt (block c.n (c.rels.map (relCo c.gens)) 0 c.terms) ⟨va, vb, vc⟩)) :=
    split hn a1 a2 a3
  have eb : vb = (Pt.plus s (Pt.scale (-1) (c.gens.b.onPt s))).plus
      (Pt.scale (1 / c.n) (triAt (block c.n (c.rels.map (relCo c.gens)) 1 c.terms) ⟨va, vb, vc⟩)) := by
    have := split (v := vb) (p2 := vc) (p3 := va) hn b2 b3 b1
    simp only [s, triAt]
    rw [pt_rot (c.s.a.onPt va), pt_rot (M3.onPt _ va)]
    exact this
  have ec : vc = (Pt.plus s (Pt.scale (-1) (c.gens.c.onPt s))).plus
      (Pt.scale (1 / c.n) (triAt (block c.n (c.rels.map (relCo c.gens)) 2 c.terms) ⟨va, vb, vc⟩)) := by
    have := split (v := vc) (p2 := va) (p3 := vb) hn c3 c1 c2
    simp only [s, triAt]
    rw [← pt_rot (c.s.c.onPt vc), ← pt_rot (M3.onPt _ vc)]
    exact this
  let q1 := Pt.scale (-1) s
  have hS1 : SpaceLike (Conj (changeOfBasis M3.one 1 q1) S) Integral c.grp := by
    refine hS.conj (by decide) (by decide) (fun r hr => ⟨r, hr, ?_⟩) (fun r hr => ⟨r, hr, ?_⟩) ?_
    · rw [M3.one_mul, M3.mul_one]
    · rw [M3.one_mul, M3.mul_one]
    · intro t
      rw [one_onPt]
      have : Pt.scale (1 / (1 : Nat)) t = t := by simp [Pt.scale]
      rw [this]
  have moved : ∀ {g : M3} {v b : Pt} {u : V3}, S (aff g v) → v = (Pt.plus s (Pt.scale (-1) (g.onPt s))).plus b →
      Integral (b.plus (Pt.scale (-1) (over c.m u))) → Conj (changeOfBasis M3.one 1 q1) S (aff g (over c.m u)) := by
    intro g v b u hv e hi
    have h1 : Conj (changeOfBasis M3.one 1 q1) S (aff g b) := by
      refine ⟨_, hv, conj_aff (by rw [M3.one_mul, M3.mul_one]) ?_⟩
      rw [one_onPt, e]
      simp only [q1, Pt.scale, Pt.plus, M3.onPt]
      ext <;> simp only [] <;> push_cast <;> ring
    obtain ⟨k, hk⟩ := hi
    refine hS1.add_lat (u := V3.whole k.neg) h1 ⟨_, rfl⟩ ?_
    have hx := congrArg Pt.x hk
    have hy := congrArg Pt.y hk
    have hz := congrArg Pt.z hk
    simp only [Pt.plus, Pt.scale, V3.whole, V3.neg] at hx hy hz ⊢
    push_cast at hx hy hz ⊢
    ext <;> simp only []
    · linarith
    · linarith
    · linarith
  have sa := moved ha ea ia
  have sb := moved hb eb ib
  have sc := moved hc ec ic
  -- the change of basis
  obtain ⟨k, hk⟩ := casesCheck_mem hcases hw
  unfold caseCheck at hk
  cases hu : c.reps[k.rep]? with
  | none => rw [hu] at hk; cases hk
  | some u =>
    rw [hu] at hk
    simp only [Bool.and_eq_true, decide_eq_true_eq] at hk
    obtain ⟨⟨⟨hdet, ka⟩, kb⟩, kc⟩ := hk
    have hpos : 0 < k.x.det := by rw [hdet]; decide
    have wordMem : ∀ word, (sym c.gens word).rot ∈ c.grp := fun word =>
      hS1.rot_mem (sym_mem hS1 integral_zero (v := ⟨_, _, _⟩) sa sb sc word)
    have conjEq : ∀ {g : M3} {x : V3} {word : List Nat}, genCheck c w k.x k.q g x word = true →
        k.x.mul (sym c.gens word).rot = g.mul k.x := by
      intro g x word hg
      simp only [genCheck, Bool.and_eq_true, M3.eqB_iff] at hg
      exact hg.1.1.1
    obtain ⟨p1, p2⟩ := conj_grp (P := c.grp) hnd (grp_finite c) (grp_ncard c)
      (hS1.rot_mem ((hS1.lat _).2 integral_zero)) (fun r hr r' hr' => hS1.mul_mem hr hr') hpos
      (r := ⟨_, _, _⟩) (wordMem k.w.a) (wordMem k.w.b) (wordMem k.w.c) (conjEq ka) (conjEq kb) (conjEq kc)
    have hS2 : SpaceLike (Conj (changeOfBasis k.x 1 (over c.m k.q)) (Conj (changeOfBasis M3.one 1 q1) S)) Integral c.grp := by
      refine hS1.conj (by decide) hpos p1 p2 ?_
      intro t
      have : ∀ p : Pt, Pt.scale (1 / (1 : Nat)) p = p := by intro p; simp [Pt.scale]
      rw [this]
      refine ⟨onPt_integral, fun hi => ?_⟩
      have := onPt_integral (a := k.x.uinv) hi
      rwa [onPt_onPt, M3.uinv_mul (.inl hdet), one_onPt] at this
    have moved2 : ∀ {g : M3} {x : V3} {word : List Nat}, genCheck c w k.x k.q g x word = true →
        Conj (changeOfBasis k.x 1 (over c.m k.q)) (Conj (changeOfBasis M3.one 1 q1) S) (aff g (over c.m x)) := by
      intro g x word hg
      have h1 := sym_mem hS1 integral_zero (v := ⟨over c.m w.a, over c.m w.b, over c.m w.c⟩) sa sb sc word
      have h2 : Conj (changeOfBasis k.x 1 (over c.m k.q)) (Conj (changeOfBasis M3.one 1 q1) S) (aff g _) :=
        ⟨_, h1, conj_aff (conjEq hg) rfl⟩
      simp only [genCheck, Bool.and_eq_true, beq_iff_eq] at hg
      obtain ⟨⟨⟨-, hx⟩, hy⟩, hz⟩ := hg
      obtain ⟨z1, e1⟩ := Int.dvd_of_emod_eq_zero hx
      obtain ⟨z2, e2⟩ := Int.dvd_of_emod_eq_zero hy
      obtain ⟨z3, e3⟩ := Int.dvd_of_emod_eq_zero hz
      refine hS2.add_lat (u := V3.whole ⟨-z1, -z2, -z3⟩) h2 ⟨_, rfl⟩ ?_
      have hmq : (c.m : ℚ) ≠ 0 := by exact_mod_cast hm.ne'
      simp only [V3.sub, V3.add, M3.mulVec, Sym.atZ] at e1 e2 e3
      have f1 := congrArg (Int.cast (R := ℚ)) e1
      have f2 := congrArg (Int.cast (R := ℚ)) e2
      have f3 := congrArg (Int.cast (R := ℚ)) e3
      push_cast at f1 f2 f3
      simp only [Sym.at, over, Pt.plus, Pt.scale, V3.whole, M3.onPt]
      push_cast
      ext <;> simp only [] <;> field_simp
      · linear_combination - f1
      · linear_combination - f2
      · linear_combination - f3
    exact ⟨k.rep, u, hu, _, (sameKind_conj (by decide) (by decide)).trans (sameKind_conj (by decide) hpos), hS2,
      moved2 ka, moved2 kb, moved2 kc⟩

end Verif.Arith
