import Verif.Proofs.TypeEval
import Verif.Proofs.RowFacts

/-! # Two further invariants of a type: how many operations of each kind, and the sense of screw axes -/

namespace Verif

/-! ## Kinds -/

theorem M3.mul_left_cancel_det {a r s : M3} (ha : a.det ≠ 0) (h : a.mul r = a.mul s) : r = s := by
  have key : ∀ r : M3, a.adj.mul (a.mul r) = r.map fun x => a.det * x := by
    intro r
    ext <;> simp only [M3.mul, M3.adj, M3.map, M3.det] <;> ring
  have := congrArg a.adj.mul h
  rw [key, key] at this
  simp only [M3.map, M3.mk.injEq] at this
  obtain ⟨h1, h2, h3, h4, h5, h6, h7, h8, h9⟩ := this
  ext
  · exact mul_left_cancel₀ ha h1
  · exact mul_left_cancel₀ ha h2
  · exact mul_left_cancel₀ ha h3
  · exact mul_left_cancel₀ ha h4
  · exact mul_left_cancel₀ ha h5
  · exact mul_left_cancel₀ ha h6
  · exact mul_left_cancel₀ ha h7
  · exact mul_left_cancel₀ ha h8
  · exact mul_left_cancel₀ ha h9

theorem M3.mul_right_cancel_det {a r s : M3} (ha : a.det ≠ 0) (h : r.mul a = s.mul a) : r = s := by
  have key : ∀ r : M3, (r.mul a).mul a.adj = r.map fun x => a.det * x := by
    intro r
    ext <;> simp only [M3.mul, M3.adj, M3.map, M3.det] <;> ring
  have := congrArg (·.mul a.adj) h
  simp only [key] at this
  simp only [M3.map, M3.mk.injEq] at this
  obtain ⟨h1, h2, h3, h4, h5, h6, h7, h8, h9⟩ := this
  ext
  · exact mul_left_cancel₀ ha h1
  · exact mul_left_cancel₀ ha h2
  · exact mul_left_cancel₀ ha h3
  · exact mul_left_cancel₀ ha h4
  · exact mul_left_cancel₀ ha h5
  · exact mul_left_cancel₀ ha h6
  · exact mul_left_cancel₀ ha h7
  · exact mul_left_cancel₀ ha h8
  · exact mul_left_cancel₀ ha h9

theorem conj_pow {a r r' : M3} (h : a.mul r = r'.mul a) (k : Nat) : a.mul (r.pow k) = (r'.pow k).mul a := by
  induction k with
  | zero => exact (M3.mul_one a).trans (M3.one_mul a).symm
  | succ k ih =>
    simp only [M3.pow]
    first
      | rw [← M3.mul_assoc, ih, M3.mul_assoc, h, M3.mul_assoc]
      | rw [← M3.mul_assoc, h, M3.mul_assoc, ih, M3.mul_assoc]

theorem conj_order {a r r' : M3} (ha : a.det ≠ 0) (h : a.mul r = r'.mul a) {k : Nat} (ho : r.HasOrder k) : r'.HasOrder k := by
  have key : ∀ j, r.pow j = M3.one ↔ r'.pow j = M3.one := by
    intro j
    have hj := conj_pow h j
    constructor
    · intro e
      rw [e, M3.mul_one] at hj
      exact (M3.mul_right_cancel_det ha ((M3.one_mul a).trans hj)).symm
    · intro e
      rw [e, M3.one_mul] at hj
      exact M3.mul_left_cancel_det ha (hj.trans (M3.mul_one a).symm)
  exact ⟨ho.1, (key k).1 ho.2.1, fun j h1 h2 h3 => ho.2.2 j h1 h2 ((key j).2 h3)⟩

theorem conj_neg {a r r' : M3} (h : a.mul r = r'.mul a) : a.mul r.neg = r'.neg.mul a := by
  have h1 : a.mul r.neg = (a.mul r).neg := by
    ext <;> simp only [M3.mul, M3.neg, M3.map] <;> ring
  have h2 : r'.neg.mul a = (r'.mul a).neg := by
    ext <;> simp only [M3.mul, M3.neg, M3.map] <;> ring
  rw [h1, h2, h]

theorem conj_kind {a r r' : M3} (ha : a.det ≠ 0) (h : a.mul r = r'.mul a) {t : RotationType} (hk : r.IsKind t) : r'.IsKind t := by
  unfold M3.IsKind at hk ⊢
  split
  · rename_i hi
    rw [if_pos hi] at hk
    exact ⟨(conj_det ha (conj_neg h)).symm.trans hk.1, conj_order ha (conj_neg h) hk.2⟩
  · rename_i hi
    rw [if_neg hi] at hk
    exact ⟨(conj_det ha h).symm.trans hk.1, conj_order ha h hk.2⟩

theorem Transfer.conj_rot {n n' : HallSymbolNotation} (t : Transfer (SpaceGroup n) (SpaceGroup n')) {a : M3} {d : Nat} {q : Pt}
    (hd : 0 < d) (hφ : t.φ = changeOfBasis a d q) {r : M3} (hr : r ∈ PointGroup n) :
    ∃ r' ∈ PointGroup n', a.mul r = r'.mul a := by
  obtain ⟨f, hf, m, rfl, rfl⟩ := hr
  have hf' := (t.mem _).1 hf
  obtain ⟨m', e', _, _⟩ := hf'.isOp
  refine ⟨m'.rot, ⟨_, hf', m', rfl, e'⟩, ?_⟩
  refine rot_conj (q := q) hd ?_
  rw [← hφ]
  calc t.φ ∘ m.act = t.φ ∘ m.act ∘ (t.ψ ∘ t.φ) := by rw [t.ψφ]; rfl
    _ = (t.φ ∘ m.act ∘ t.ψ) ∘ t.φ := rfl
    _ = m'.act ∘ t.φ := by rw [e']

/-- Groups of the same type have equally many rotations of each kind, if the point groups are finite. -/
theorem SameType.kinds_le {n n' : HallSymbolNotation} (h : SameType n n') (hfin : (PointGroup n').Finite) (k : RotationType) :
    {r ∈ PointGroup n | r.IsKind k}.ncard ≤ {r ∈ PointGroup n' | r.IsKind k}.ncard := by
  obtain ⟨t, a, d, q, hd, ha, hφ, -⟩ := h.transfer
  have hex : ∀ r, ∃ r', r ∈ PointGroup n → r' ∈ PointGroup n' ∧ a.mul r = r'.mul a := by
    intro r
    by_cases hr : r ∈ PointGroup n
    · obtain ⟨r', h1, h2⟩ := t.conj_rot hd hφ hr
      exact ⟨r', fun _ => ⟨h1, h2⟩⟩
    · exact ⟨r, fun h => absurd h hr⟩
  choose F hF using hex
  refine Set.ncard_le_ncard_of_injOn F ?_ ?_ (hfin.subset fun r hr => hr.1)
  · rintro r ⟨hr, hk⟩
    exact ⟨(hF r hr).1, conj_kind ha.ne' (hF r hr).2 hk⟩
  · rintro r ⟨hr, _⟩ s ⟨hs, _⟩ e
    refine M3.mul_left_cancel_det ha.ne' ?_
    rw [(hF r hr).2, (hF s hs).2, e]

theorem SameType.kinds {n n' : HallSymbolNotation} (h : SameType n n') (hfin : (PointGroup n).Finite)
    (hfin' : (PointGroup n').Finite) (k : RotationType) :
    {r ∈ PointGroup n | r.IsKind k}.ncard = {r ∈ PointGroup n' | r.IsKind k}.ncard :=
  Nat.le_antisymm (h.kinds_le hfin' k) (h.symm.kinds_le hfin k)

/-! ## Screws -/

/-- The determinant of three vectors. -/
def det3 (u v w : Pt) : ℚ :=
  u.x * (v.y * w.z - v.z * w.y) - u.y * (v.x * w.z - v.z * w.x) + u.z * (v.x * w.y - v.y * w.x)

/-- The group has a screw of the given kind whose `k`-th power is the shortest translation along its axis, the rotation
being in the positive sense as seen along that translation. -/
def Screw (G : (Pt → Pt) → Prop) (kind : RotationType) (k : Nat) : Prop :=
  ∃ f σ, G f ∧ KindOf f kind ∧ G (translate σ) ∧ f^[k] = translate σ ∧
    (∀ τ, G (translate τ) → lin f τ = τ → ∃ c : Int, τ = σ.smul c) ∧ ∀ w, 0 ≤ det3 σ w (lin f w)

theorem det3_basisPart (a : M3) (d : Nat) (u v w : Pt) :
    det3 (basisPart a d u) (basisPart a d v) (basisPart a d w) = a.det / (d * d * d) * det3 u v w := by
  by_cases hd : (d : ℚ) = 0
  · simp [basisPart, det3, hd]
  · simp only [basisPart, det3, M3.det]
    push_cast
    field_simp
    ring

theorem Transfer.conj_iterate {G G' : (Pt → Pt) → Prop} (t : Transfer G G') (f : Pt → Pt) (k : Nat) :
    t.conj f^[k] = (t.conj f)^[k] := by
  induction k with
  | zero => exact t.conj_id
  | succ k ih => rw [Function.iterate_succ, Function.iterate_succ, t.conj_comp, ih]

theorem SameType.screw {n n' : HallSymbolNotation} (h : SameType n n') {kind : RotationType} {k : Nat}
    (hs : Screw (SpaceGroup n) kind k) : Screw (SpaceGroup n') kind k := by
  obtain ⟨t, a, d, q, hd, ha, hφ, hA⟩ := h.transfer
  obtain ⟨f, σ, hf, hk, hσ, hp, hg, ho⟩ := hs
  have haff := t.affine f hf
  refine ⟨t.conj f, t.A σ, (t.mem _).1 hf, (t.kind _ _ hf).1 hk, t.mem_translate hσ, ?_, ?_, ?_⟩
  · rw [← t.conj_iterate, hp, t.conj_translate]
  · intro τ hτ hfix
    have h1 : SpaceGroup n (translate (t.B τ)) := t.symm.mem_translate hτ
    have h2 : lin f (t.B τ) = t.B τ := by
      have := t.conj_lin haff (t.B τ)
      rw [t.AB, hfix] at this
      have := congrArg t.B this
      rw [t.BA] at this
      exact this.symm
    obtain ⟨c, hc⟩ := hg _ h1 h2
    refine ⟨c, ?_⟩
    have := congrArg t.A hc
    rwa [t.AB, t.A_smul] at this
  · intro w
    have hw := t.conj_lin haff (t.B w)
    rw [t.AB] at hw
    have key : det3 (t.A σ) w (t.A (lin f (t.B w))) = det3 (t.A σ) (t.A (t.B w)) (t.A (lin f (t.B w))) := by rw [t.AB]
    rw [hw, key, hA, det3_basisPart]
    have hd' : (0 : ℚ) < d := by exact_mod_cast hd
    have ha' : (0 : ℚ) < a.det := by exact_mod_cast ha
    exact mul_nonneg (by positivity) (ho (t.B w))

/-- The rotation by 90° about c. -/
def rot4z : M3 := ⟨0, -1, 0, 1, 0, 0, 0, 0, 1⟩

/-- The rotation by 120° about c in a hexagonal cell. -/
def rot3z : M3 := ⟨0, -1, 0, 1, -1, 0, 0, 0, 1⟩

/-- A lattice without centring consists of whole cells. -/
theorem inT_P {l : LatticeSymbol} (hl : l.char = .P) {v : V3} : InT l v ↔ ∃ k : V3, v = k.smul 12 := by
  have ht : l.translations = [⟨0, 0, 0⟩] := by rw [LatticeSymbol.translations, hl]; rfl
  simp only [InT, LatCong, ht, List.mem_singleton, exists_eq_left, V3.zero_add]
  constructor
  · rintro ⟨⟨a, ha⟩, ⟨b, hb⟩, ⟨c, hc⟩⟩
    refine ⟨⟨a, b, c⟩, ?_⟩
    ext <;> simp only [V3.smul] at * <;> omega
  · rintro ⟨k, rfl⟩
    exact ⟨⟨k.x, by simp [V3.smul]⟩, ⟨k.y, by simp [V3.smul]⟩, ⟨k.z, by simp [V3.smul]⟩⟩

/-- A listed 4₁ or 3₁ operation about c. -/
def screwB (kind : RotationType) (L : List M4) : Bool :=
  L.any fun m => match kind with
    | .N4 => m.rot.eqB rot4z && intEqB m.tr.z 3
    | .N3 => m.rot.eqB rot3z && intEqB m.tr.z 4
    | _ => false

theorem screw_true {n : HallSymbolNotation} {L : List M4} (h : Described n L) (hl : n.latticeSymbol.char = .P)
    {kind : RotationType} {k : Nat} (hk : (kind = .N4 ∧ k = 4) ∨ (kind = .N3 ∧ k = 3)) (hB : screwB kind L = true) :
    Screw (SpaceGroup n) kind k := by
  obtain ⟨m, hm, hB⟩ := List.any_eq_true.1 hB
  have hσ : SpaceGroup n (translate (V3.pt ⟨0, 0, 12⟩)) :=
    (h.translate_iff _).2 ⟨_, rfl, (inT_P hl).2 ⟨⟨0, 0, 1⟩, rfl⟩⟩
  rcases hk with ⟨rfl, rfl⟩ | ⟨rfl, rfl⟩
  · simp only [Bool.and_eq_true, M3.eqB_iff, intEqB_iff] at hB
    obtain ⟨hr, ht⟩ := hB
    refine ⟨m.act, V3.pt ⟨0, 0, 12⟩, (h.inGroup m hm).2, kindOf_act.2 (by rw [hr]; decide), hσ, ?_, ?_, ?_⟩
    · funext p
      simp only [Function.iterate_succ, Function.iterate_zero, Function.comp_apply, id, translate, M4.act, hr, rot4z, Pt.add, V3.pt, ht]
      ext <;> push_cast <;> ring
    · intro τ hτ hfix
      obtain ⟨v, rfl, hv⟩ := (h.translate_iff _).1 hτ
      obtain ⟨k, rfl⟩ := (inT_P hl).1 hv
      rw [lin_act, M3.app_pt] at hfix
      have := V3.pt_inj hfix
      rw [hr] at this
      simp only [rot4z, M3.mulVec, V3.smul, V3.mk.injEq] at this
      refine ⟨k.z, ?_⟩
      rw [← V3.pt_smul]
      congr 1
      ext <;> simp only [V3.smul] <;> omega
    · intro w
      rw [lin_act, hr]
      simp only [det3, V3.pt, M3.app, rot4z]
      push_cast
      nlinarith [mul_self_nonneg w.x, mul_self_nonneg w.y]
  · simp only [Bool.and_eq_true, M3.eqB_iff, intEqB_iff] at hB
    obtain ⟨hr, ht⟩ := hB
    refine ⟨m.act, V3.pt ⟨0, 0, 12⟩, (h.inGroup m hm).2, kindOf_act.2 (by rw [hr]; decide), hσ, ?_, ?_, ?_⟩
    · funext p
      simp only [Function.iterate_succ, Function.iterate_zero, Function.comp_apply, id, translate, M4.act, hr, rot3z, Pt.add, V3.pt, ht]
      ext <;> push_cast <;> ring
    · intro τ hτ hfix
      obtain ⟨v, rfl, hv⟩ := (h.translate_iff _).1 hτ
      obtain ⟨k, rfl⟩ := (inT_P hl).1 hv
      rw [lin_act, M3.app_pt] at hfix
      have := V3.pt_inj hfix
      rw [hr] at this
      simp only [rot3z, M3.mulVec, V3.smul, V3.mk.injEq] at this
      refine ⟨k.z, ?_⟩
      rw [← V3.pt_smul]
      congr 1
      ext <;> simp only [V3.smul] <;> omega
    · intro w
      rw [lin_act, hr]
      simp only [det3, V3.pt, M3.app, rot3z]
      push_cast
      nlinarith [sq_nonneg (w.x - w.y), sq_nonneg w.x, sq_nonneg w.y]

/-- The coordinate of a vector. -/
def V3.get (v : V3) : Fin 3 → Int
  | 0 => v.x
  | 1 => v.y
  | 2 => v.z

/-- The coordinate of a point. -/
def Pt.get (p : Pt) : Fin 3 → ℚ
  | 0 => p.x
  | 1 => p.y
  | 2 => p.z

/-- A coordinate axis. -/
def unit : Fin 3 → V3
  | 0 => ⟨1, 0, 0⟩
  | 1 => ⟨0, 1, 0⟩
  | 2 => ⟨0, 0, 1⟩

/-- A row of a matrix. -/
def M3.row (a : M3) : Fin 3 → V3
  | 0 => ⟨a.m11, a.m12, a.m13⟩
  | 1 => ⟨a.m21, a.m22, a.m23⟩
  | 2 => ⟨a.m31, a.m32, a.m33⟩

/-- The determinant of three integer vectors. -/
def det3Z (u v w : V3) : Int :=
  u.x * (v.y * w.z - v.z * w.y) - u.y * (v.x * w.z - v.z * w.x) + u.z * (v.x * w.y - v.y * w.x)

/-- The operation turns about the axis `i`, in the sense given by the vector `w`, and its `k`-th power is not the shortest
translation along it in that sense. -/
def notScrewAt (k : Nat) (m : M4) (i : Fin 3) (w : V3) : Bool :=
  decide (m.rot.mulVec (unit i) = unit i) && decide (m.rot.row i = unit i) &&
    ((decide (0 < det3Z (unit i) w (m.rot.mulVec w)) && ! decide (((12 * k : Int)) ∣ (k * m.tr.get i - 12))) ||
     (decide (det3Z (unit i) w (m.rot.mulVec w) < 0) && ! decide (((12 * k : Int)) ∣ (k * m.tr.get i + 12))))

/-- No listed operation of the kind is such a screw. -/
def notScrewB (kind : RotationType) (k : Nat) (L : List M4) : Bool :=
  L.all fun m => ! typeB kind m.rot || [0, 1, 2].any fun i => [0, 1, 2].any fun j => notScrewAt k m i (unit j)

theorem act_get {m : M4} {i : Fin 3} (h : m.rot.row i = unit i) (p : Pt) : (m.act p).get i = p.get i + m.tr.get i / 12 := by
  match i with
  | 0 => simp only [M3.row, unit, V3.mk.injEq] at h
         simp [Pt.get, M4.act, V3.get, h]
  | 1 => simp only [M3.row, unit, V3.mk.injEq] at h
         simp [Pt.get, M4.act, V3.get, h]
  | 2 => simp only [M3.row, unit, V3.mk.injEq] at h
         simp [Pt.get, M4.act, V3.get, h]

theorem act_iterate_get {m : M4} {i : Fin 3} (h : m.rot.row i = unit i) (k : Nat) (p : Pt) :
    (m.act^[k] p).get i = p.get i + k * m.tr.get i / 12 := by
  induction k generalizing p with
  | zero => simp
  | succ k ih =>
    rw [Function.iterate_succ_apply, ih, act_get h]
    push_cast; ring

theorem det3_pt (u v w : V3) : det3 u.pt v.pt w.pt = det3Z u v w / 1728 := by
  simp only [det3, det3Z, V3.pt]; push_cast; ring

theorem screw_false {n : HallSymbolNotation} {L : List M4} (h : Described n L) (hl : n.latticeSymbol.char = .P)
    {kind : RotationType} {k : Nat} (hB : notScrewB kind k L = true) : ¬ Screw (SpaceGroup n) kind k := by
  rintro ⟨f, σ, hf, hk, hσ, hp, hg, ho⟩
  obtain ⟨m, rfl, _, _⟩ := hf.isOp
  obtain ⟨c, hc, hr, ht⟩ := (h.mem_iff m).1 hf
  rw [kindOf_act, ← hr] at hk
  have := List.all_eq_true.1 hB c hc
  rw [hk] at this
  simp only [Bool.not_true, Bool.false_or, List.any_eq_true] at this
  obtain ⟨i, -, j, -, hB⟩ := this
  simp only [notScrewAt, Bool.and_eq_true, Bool.or_eq_true, decide_eq_true_eq, Bool.not_eq_true', decide_eq_false_iff_not] at hB
  obtain ⟨⟨hcol, hrow⟩, hB⟩ := hB
  rw [hr] at hcol hrow hB
  -- the translation is the unit vector up to sign
  obtain ⟨s, rfl, hs⟩ := (h.translate_iff _).1 hσ
  obtain ⟨z, rfl⟩ := (inT_P hl).1 hs
  obtain ⟨e, he⟩ := hg (V3.pt ((unit i).smul 12)) ((h.translate_iff _).2 ⟨_, rfl, (inT_P hl).2 ⟨_, rfl⟩⟩) (by
    rw [lin_act, M3.app_pt]
    congr 1
    have : m.rot.mulVec ((unit i).smul 12) = (m.rot.mulVec (unit i)).smul 12 := by
      ext <;> simp only [M3.mulVec, V3.smul] <;> ring
    rw [this, hcol])
  rw [← V3.pt_smul] at he
  have he := V3.pt_inj he
  have hz : unit i = z.smul e := by
    have h1 := congrArg V3.x he
    have h2 := congrArg V3.y he
    have h3 := congrArg V3.z he
    simp only [V3.smul] at h1 h2 h3
    ext <;> simp only [V3.smul] <;> linarith
  -- its coordinate along the axis
  have hcoord := act_iterate_get hrow k Pt.zero
  rw [hp] at hcoord
  have hzi : ((translate (V3.pt (z.smul 12))) Pt.zero).get i = z.get i := by
    match i with
    | 0 => simp [translate, Pt.get, Pt.add, Pt.zero, V3.pt, V3.smul, V3.get]
    | 1 => simp [translate, Pt.get, Pt.add, Pt.zero, V3.pt, V3.smul, V3.get]
    | 2 => simp [translate, Pt.get, Pt.add, Pt.zero, V3.pt, V3.smul, V3.get]
  have h0 : Pt.zero.get i = 0 := by
    match i with
    | 0 => rfl
    | 1 => rfl
    | 2 => rfl
  rw [hzi, h0] at hcoord
  have hcoord : (12 * z.get i : Int) = k * m.tr.get i := by
    have : (12 * z.get i : ℚ) = k * m.tr.get i := by rw [hcoord]; ring
    exact_mod_cast this
  -- the listed translation differs by whole cells
  have htr : ∃ y : Int, m.tr.get i = c.tr.get i + 12 * y := by
    have hsub : InT n.latticeSymbol (m.tr.sub c.tr) := by
      obtain ⟨w, hw, c1, c2, c3⟩ := ht
      refine ⟨w, hw, ?_, ?_, ?_⟩ <;> simp only [V3.add, V3.sub, V3.zero] at * <;> omega
    obtain ⟨y, hy⟩ := (inT_P hl).1 hsub
    have h1 := congrArg V3.x hy
    have h2 := congrArg V3.y hy
    have h3 := congrArg V3.z hy
    simp only [V3.smul, V3.sub] at h1 h2 h3
    refine ⟨y.get i, ?_⟩
    match i with
    | 0 => simp only [V3.get]; omega
    | 1 => simp only [V3.get]; omega
    | 2 => simp only [V3.get]; omega
  obtain ⟨y, hy⟩ := htr
  -- the sense
  have hsense := ho (unit j).pt
  rw [lin_act, M3.app_pt, det3_pt] at hsense
  have hsense : 0 ≤ det3Z z (unit j) (m.rot.mulVec (unit j)) := by
    have e1 : det3Z (z.smul 12) (unit j) (m.rot.mulVec (unit j)) = 12 * det3Z z (unit j) (m.rot.mulVec (unit j)) := by
      simp only [det3Z, V3.smul]; ring
    rw [e1] at hsense
    have : (0 : ℚ) ≤ ((12 * det3Z z (unit j) (m.rot.mulVec (unit j)) : Int) : ℚ) := by
      have := mul_nonneg hsense (by norm_num : (0 : ℚ) ≤ 1728)
      linarith
    have : (0 : Int) ≤ 12 * det3Z z (unit j) (m.rot.mulVec (unit j)) := by exact_mod_cast this
    omega
  have hlin : ∀ w w', det3Z (unit i) w w' = e * det3Z z w w' := by
    intro w w'
    rw [hz]; simp only [det3Z, V3.smul]; ring
  have hzi1 : e * z.get i = 1 := by
    have := congrArg (V3.get · i) hz
    match i with
    | 0 => simpa [unit, V3.get, V3.smul] using this.symm
    | 1 => simpa [unit, V3.get, V3.smul] using this.symm
    | 2 => simpa [unit, V3.get, V3.smul] using this.symm
  rw [hlin] at hB
  have hez : (e = 1 ∧ z.get i = 1) ∨ (e = -1 ∧ z.get i = -1) := Int.mul_eq_one_iff_eq_one_or_neg_one.1 hzi1
  rw [hy] at hcoord
  rcases hez with ⟨rfl, hz1⟩ | ⟨rfl, hz1⟩
  · rcases hB with ⟨_, hB⟩ | ⟨hB, _⟩
    · apply hB
      refine ⟨-y, ?_⟩
      rw [hz1] at hcoord
      linarith
    · omega
  · rcases hB with ⟨hB, _⟩ | ⟨_, hB⟩
    · omega
    · apply hB
      refine ⟨-y, ?_⟩
      rw [hz1] at hcoord
      linarith

/-! ## The check of one type -/

/-- Equality of lists of booleans. -/
def bitsEqB : List Bool → List Bool → Bool
  | [], [] => true
  | a :: l, b :: l' => (a == b) && bitsEqB l l'
  | _, _ => false

theorem bitsEqB_iff {a b : List Bool} : bitsEqB a b = true ↔ a = b := by
  induction a generalizing b with
  | nil => cases b <;> simp [bitsEqB]
  | cons x a ih => cases b <;> simp [bitsEqB, ih]

/-- The statements have the given truth values in the group of the symbol. -/
def memberCheck (ss : List Sentence) (h : String) (bits : List Bool) : Bool :=
  match parseHallSymbol h.toList with
  | some (n, []) =>
    match n.seitzMatrices with
    | some ms => checkCert n ms (certList n ms) && bitsEqB (ss.map fun s => s.holdsB n.latticeSymbol (certList n ms)) bits
    | none => false
  | _ => false

theorem memberCheck_sound {ss : List Sentence} (hss : ∀ s ∈ ss, s.modsB = true) {h : String} {bits : List Bool}
    (hc : memberCheck ss h bits = true) : ∃ n, parseHallSymbol h.toList = some (n, []) ∧
      ∀ i : Nat, ∀ s b, ss[i]? = some s → bits[i]? = some b → (s.Holds (SpaceGroup n) ↔ b = true) := by
  unfold memberCheck at hc
  split at hc
  · rename_i n hp
    split at hc
    · rename_i ms hms
      simp only [Bool.and_eq_true, bitsEqB_iff] at hc
      have hd := described_certList hms hc.1
      refine ⟨n, hp, fun i s b hs hb => ?_⟩
      rw [← hc.2, List.getElem?_map, hs, Option.map_some, Option.some.injEq] at hb
      rw [← hb, Sentence.holdsB_iff hd (hss s (List.mem_of_getElem? hs))]
    · cases hc
  · cases hc

/-- Different truth values: different types. -/
theorem bits_differ {ss : List Sentence} (hss : ∀ s ∈ ss, s.modsB = true) {h h' : String} {bits bits' : List Bool}
    (hc : memberCheck ss h bits = true) (hc' : memberCheck ss h' bits' = true) (hne : bits ≠ bits')
    {n n' : HallSymbolNotation} (hn : parseHallSymbol h.toList = some (n, [])) (hn' : parseHallSymbol h'.toList = some (n', [])) :
    ¬ SameType n n' := by
  intro hs
  apply hne
  have hlen : ∀ {h : String} {bits : List Bool}, memberCheck ss h bits = true → bits.length = ss.length := by
    intro h bits hc
    unfold memberCheck at hc
    split at hc
    · split at hc
      · simp only [Bool.and_eq_true, bitsEqB_iff] at hc
        rw [← hc.2, List.length_map]
      · cases hc
    · cases hc
  obtain ⟨m, hm, hb⟩ := memberCheck_sound hss hc
  obtain ⟨m', hm', hb'⟩ := memberCheck_sound hss hc'
  rw [hn] at hm; rw [hn'] at hm'
  simp only [Option.some.injEq, Prod.mk.injEq, and_true] at hm hm'
  subst hm; subst hm'
  apply List.ext_getElem (by rw [hlen hc, hlen hc'])
  intro i h1 h2
  have hi : i < ss.length := by rw [← hlen hc]; exact h1
  have e1 := hb i ss[i] bits[i] (List.getElem?_eq_getElem hi) (List.getElem?_eq_getElem h1)
  have e2 := hb' i ss[i] bits'[i] (List.getElem?_eq_getElem hi) (List.getElem?_eq_getElem h2)
  rw [Bool.eq_iff_iff, ← e1, ← e2]
  exact hs.sentence _

end Verif
