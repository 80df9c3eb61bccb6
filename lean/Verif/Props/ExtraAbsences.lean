import Verif.Spec.ExtraAbsences
import Verif.Props.Conditions
import Verif.Props.Symmorphic
import Verif.Props.Polar

/-! # Reflections forbidden by more than the lattice (C115) -/

namespace Verif
open Arith

/-! ## Change of axes -/

theorem SameType.extra_le {n n' : HallSymbolNotation} (h : SameType n n') (hf : ExtraAbsences n) : ExtraAbsences n' := by
  obtain ⟨k, ⟨f, hf, c, hc, hfc⟩, hk⟩ := hf
  obtain ⟨a, d, q, hd, ha, h⟩ := h
  obtain ⟨b, e, s, he, hb, h1, h2⟩ := changeOfBasis_inv a d q hd ha
  have c1 := fun x => congrFun h1 x
  have c2 := fun x => congrFun h2 x
  simp only [Function.comp_apply, id] at c1 c2
  have he' : (e : ℚ) ≠ 0 := by exact_mod_cast he.ne'
  -- translations of the new group move the planes by whole distances
  have back : ∀ f', SpaceGroup n' f' → SpaceGroup n (changeOfBasis b e s ∘ f' ∘ changeOfBasis a d q) := by
    intro f' hf'
    refine (h _ f' ?_).2 hf'
    funext p
    simp only [Function.comp_apply, c1]
  have lin : ∀ x u : Pt, k.phase (changeOfBasis b e s ⟨x.x + u.x, x.y + u.y, x.z + u.z⟩) =
      k.phase (changeOfBasis b e s x) + k.phase (changeOfBasis b e ⟨0, 0, 0⟩ u) := by
    intro x u
    simp only [changeOfBasis, V3.phase]
    ring
  have whole : ∀ f', SpaceGroup n' f' → ∀ u : Pt, (∀ p, f' p = ⟨p.x + u.x, p.y + u.y, p.z + u.z⟩) →
      ∃ j : ℤ, k.phase (changeOfBasis b e ⟨0, 0, 0⟩ u) = j := by
    intro f' hf' u hu
    by_contra hcon
    push Not at hcon
    apply hk
    refine ⟨_, back f' hf', ⟨changeOfBasis b e ⟨0, 0, 0⟩ u, ?_⟩, k.phase (changeOfBasis b e ⟨0, 0, 0⟩ u), hcon, ?_⟩
    · intro p
      have : ∀ x : Pt, changeOfBasis b e s ⟨x.x + u.x, x.y + u.y, x.z + u.z⟩ =
          ⟨(changeOfBasis b e s x).x + (changeOfBasis b e ⟨0, 0, 0⟩ u).x, (changeOfBasis b e s x).y + (changeOfBasis b e ⟨0, 0, 0⟩ u).y,
            (changeOfBasis b e s x).z + (changeOfBasis b e ⟨0, 0, 0⟩ u).z⟩ := by
        intro x
        simp only [changeOfBasis]
        ext <;> simp only [] <;> ring
      simp only [Function.comp_apply, hu, this, c2]
    · intro p
      simp only [Function.comp_apply, hu, lin, c2]
  obtain ⟨w1, e1⟩ := whole _ (.cell ⟨1, 0, 0⟩) ⟨1, 0, 0⟩ (fun p => by simp [Pt.addCell])
  obtain ⟨w2, e2⟩ := whole _ (.cell ⟨0, 1, 0⟩) ⟨0, 1, 0⟩ (fun p => by simp [Pt.addCell])
  obtain ⟨w3, e3⟩ := whole _ (.cell ⟨0, 0, 1⟩) ⟨0, 0, 1⟩ (fun p => by simp [Pt.addCell])
  have ph : ∀ x : Pt, V3.phase ⟨w1, w2, w3⟩ x = k.phase (changeOfBasis b e ⟨0, 0, 0⟩ x) := by
    intro x
    simp only [V3.phase]
    rw [← e1, ← e2, ← e3]
    simp only [changeOfBasis, V3.phase]
    field_simp
    ring
  have pc : ∀ p : Pt, V3.phase ⟨w1, w2, w3⟩ (changeOfBasis a d q p) = k.phase p - k.phase (changeOfBasis b e s ⟨0, 0, 0⟩) := by
    intro p
    have := lin ⟨0, 0, 0⟩ (changeOfBasis a d q p)
    simp only [zero_add] at this
    rw [show (⟨(changeOfBasis a d q p).x, (changeOfBasis a d q p).y, (changeOfBasis a d q p).z⟩ : Pt) = changeOfBasis a d q p from rfl,
      c2] at this
    rw [ph]
    linarith
  have px : ∀ x : Pt, V3.phase ⟨w1, w2, w3⟩ x = k.phase (changeOfBasis b e s x) - k.phase (changeOfBasis b e s ⟨0, 0, 0⟩) := by
    intro x
    rw [← pc, c1]
  refine ⟨⟨w1, w2, w3⟩, ⟨changeOfBasis a d q ∘ f ∘ changeOfBasis b e s, ?_, c, hc, ?_⟩, ?_⟩
  · refine (h f _ ?_).1 hf
    funext p
    simp only [Function.comp_apply, c2]
  · intro x
    simp only [Function.comp_apply, pc, hfc, px]
    ring
  · rintro ⟨f', hf', ⟨u, hu⟩, c', hc', hfc'⟩
    obtain ⟨j, hj⟩ := whole f' hf' u hu
    apply hc' j
    have := hfc' ⟨0, 0, 0⟩
    rw [hu, px, px, lin] at this
    linarith

theorem SameType.extra {n n' : HallSymbolNotation} (h : SameType n n') : ExtraAbsences n ↔ ExtraAbsences n' :=
  ⟨h.extra_le, h.symm.extra_le⟩

/-! ## Types without -/

/-- A group with a point of full symmetry has none. -/
theorem symmorphic_no_extra {n : HallSymbolNotation} (hs : Symmorphic n) : ¬ ExtraAbsences n := by
  rintro ⟨h, ⟨f, hf, c, hc, hfc⟩, hno⟩
  obtain ⟨p, hp⟩ := hs
  obtain ⟨τ, hτ, ⟨q, hq⟩, e⟩ := hp f hf
  apply hno
  refine ⟨τ, hτ, ⟨q, hq⟩, -c, ?_, ?_⟩
  · intro k hk
    apply hc (-k)
    push_cast
    linarith
  · intro x
    have e1 := congrArg h.phase e
    rw [hq, phase_add, hfc] at e1
    rw [hq, phase_add]
    linarith

theorem not_forbidden {n : HallSymbolNotation} (hn : Consistent n) {h : V3} (hl : LatticeCondition h n.latticeSymbol.char) :
    ¬ ForbiddenByTranslation n h := by
  rintro ⟨f, hf, ht, c, hc, hfc⟩
  rw [latticeCondition_iff] at hl
  obtain ⟨v, hv, k, hk⟩ := hn f hf ht
  obtain ⟨j, hj⟩ := hl v hv
  apply hc (j + V3.dot h k)
  have e := hfc ⟨0, 0, 0⟩
  rw [hk] at e
  have hj' : (h.x * v.x + h.y * v.y + h.z * v.z : ℚ) = 12 * j := by
    simp only [V3.dot] at hj
    exact_mod_cast hj
  simp only [V3.phase, Pt.addTwelfths, Pt.addCell] at e
  simp only [V3.dot]
  push_cast
  linarith

theorem not_forbidden_condition {n : HallSymbolNotation} {h : V3} (hno : ¬ ForbiddenByTranslation n h) :
    LatticeCondition h n.latticeSymbol.char := by
  rw [latticeCondition_iff]
  intro v hv
  by_contra hd
  apply hno
  refine ⟨_, .centring hv, ⟨⟨v.x / 12, v.y / 12, v.z / 12⟩, fun p => rfl⟩, (V3.dot h v : Int) / 12, ?_, ?_⟩
  · intro j hj
    apply hd
    refine ⟨j, ?_⟩
    have : (V3.dot h v : ℚ) = 12 * j := by linarith
    exact_mod_cast this
  · intro p
    simp only [V3.phase, Pt.addTwelfths, V3.dot]
    push_cast
    ring

/-- For consistent notations with positions the listed operations decide. -/
theorem no_extra_listed {n : HallSymbolNotation} {g : GeneralPositions} (hg : HasPositions n g) (hn : Consistent n)
    (hops : ∀ h, LatticeCondition h n.latticeSymbol.char → ∀ m ∈ g.deriveFullSets.flatten, m.rot.vecMul h = h →
      (12 : Int) ∣ V3.dot h m.tr) : ¬ ExtraAbsences n := by
  rintro ⟨h, ha, hno⟩
  obtain ⟨m, hm, h1, h2⟩ := (absent_iff_listed hg hn h).1 ha
  exact h2 (hops h (not_forbidden_condition hno) m hm h1)

/-! ## Types with -/

/-- Product of operations, translations not reduced. -/
def plainMul (a b : M4) : M4 := ⟨a.rot.mul b.rot, (a.rot.mulVec b.tr).add a.tr, V3.zero, 1⟩

/-- A product of generators. -/
def genWord (G : List M4) (w : List Nat) : M4 := w.foldl (fun m i => plainMul m (G.getD i M4.identity)) M4.identity

theorem genWord_mem {n : HallSymbolNotation} {ms : List M4} (hms : n.seitzMatrices = some ms) (w : List Nat) :
    SpaceGroup n (genWord (n.gens ms) w).act := by
  have key : ∀ (w : List Nat) (m : M4), SpaceGroup n m.act →
      SpaceGroup n (w.foldl (fun m i => plainMul m ((n.gens ms).getD i M4.identity)) m).act := by
    intro w
    induction w with
    | nil => exact fun m hm => hm
    | cons i w ih =>
      intro m hm
      refine ih _ ?_
      have hi : SpaceGroup n ((n.gens ms).getD i M4.identity).act := by
        rw [List.getD_eq_getElem?_getD]
        cases hx : (n.gens ms)[i]? with
        | none => rw [Option.getD_none, show M4.identity.act = id from M4.act_mk_one _ _ _ rfl]; exact .one
        | some x => exact (gens_inGroup hms x (List.mem_of_getElem? hx)).2
      unfold plainMul
      rw [← M4.act_comp]
      exact hm.comp hi
  exact key w _ (by rw [show M4.identity.act = id from M4.act_mk_one _ _ _ rfl]; exact .one)

/-- A reflection and a product of generators that forbids it, for each number. -/
def extraWitness : List (Nat × V3 × List Nat) :=
  [(4, ⟨0, 1, 0⟩, [0]), (7, ⟨0, 0, 1⟩, [0]), (9, ⟨0, 0, 1⟩, [0]), (11, ⟨0, 1, 0⟩, [1]), (13, ⟨0, 0, 1⟩, [0, 1]),
   (14, ⟨0, 1, 0⟩, [1]), (15, ⟨0, 0, 1⟩, [0, 1]), (17, ⟨0, 0, 1⟩, [0]), (18, ⟨1, 0, 0⟩, [1]), (19, ⟨1, 0, 0⟩, [1]),
   (20, ⟨0, 0, 1⟩, [0]), (26, ⟨0, 0, 1⟩, [0]), (27, ⟨0, 0, 1⟩, [1]), (28, ⟨1, 0, 0⟩, [0, 1]), (29, ⟨1, 0, 0⟩, [0, 1]),
   (30, ⟨0, 1, 0⟩, [1]), (31, ⟨1, 0, 0⟩, [0, 1]), (32, ⟨1, 0, 0⟩, [0, 1]), (33, ⟨1, 0, 0⟩, [0, 1]), (34, ⟨1, 0, 0⟩, [0, 1]),
   (36, ⟨0, 0, 1⟩, [0]), (37, ⟨0, 0, 1⟩, [1]), (39, ⟨0, 1, 1⟩, [1]), (40, ⟨1, 0, 0⟩, [0, 1]), (41, ⟨1, 0, 0⟩, [0, 1]),
   (43, ⟨2, 0, 0⟩, [0, 1]), (45, ⟨1, 0, 1⟩, [0, 1]), (46, ⟨1, 0, 1⟩, [0, 1]), (48, ⟨1, 0, 0⟩, [0, 1]),
   (49, ⟨0, 0, 1⟩, [0, 2]), (50, ⟨1, 0, 0⟩, [0, 1]), (51, ⟨1, 0, 0⟩, [2]), (52, ⟨1, 0, 0⟩, [0, 1]), (53, ⟨1, 0, 0⟩, [0, 1]),
   (54, ⟨1, 0, 0⟩, [2]), (55, ⟨1, 0, 0⟩, [2]), (56, ⟨1, 0, 0⟩, [2]), (57, ⟨0, 1, 0⟩, [0, 2]), (58, ⟨1, 0, 0⟩, [2]),
   (59, ⟨1, 0, 0⟩, [2]), (60, ⟨1, 0, 0⟩, [2]), (61, ⟨1, 0, 0⟩, [2]), (62, ⟨1, 0, 0⟩, [2]), (63, ⟨0, 0, 1⟩, [1]),
   (64, ⟨0, 0, 1⟩, [1]), (66, ⟨0, 0, 1⟩, [0, 2]), (67, ⟨1, 1, 0⟩, [0, 1]), (68, ⟨0, 0, 1⟩, [0, 2]), (70, ⟨2, 0, 0⟩, [0, 1]),
   (72, ⟨1, 0, 1⟩, [0, 1, 2]), (73, ⟨1, 1, 0⟩, [0, 1]), (74, ⟨1, 1, 0⟩, [0, 1]), (76, ⟨0, 0, 1⟩, [0]), (77, ⟨0, 0, 1⟩, [0]),
   (78, ⟨0, 0, 1⟩, [0]), (80, ⟨0, 0, 2⟩, [0]), (84, ⟨0, 0, 1⟩, [1]), (85, ⟨1, 0, 0⟩, [0, 1, 1]), (86, ⟨1, 0, 0⟩, [0, 1, 1]),
   (88, ⟨1, 1, 0⟩, [0, 1, 1]), (90, ⟨1, 0, 0⟩, [1]), (91, ⟨0, 0, 1⟩, [0]), (92, ⟨1, 0, 0⟩, [1]), (93, ⟨0, 0, 1⟩, [0]),
   (94, ⟨1, 0, 0⟩, [1]), (95, ⟨0, 0, 1⟩, [0]), (96, ⟨1, 0, 0⟩, [1]), (98, ⟨0, 0, 2⟩, [0]), (100, ⟨1, 0, 0⟩, [0, 0, 1]),
   (101, ⟨0, 0, 1⟩, [0]), (102, ⟨1, 0, 0⟩, [0, 0, 1]), (103, ⟨0, 0, 1⟩, [1]), (104, ⟨1, 0, 0⟩, [0, 0, 1]),
   (105, ⟨0, 0, 1⟩, [0]), (106, ⟨1, 0, 0⟩, [0, 0, 1]), (108, ⟨1, 0, 1⟩, [0, 0, 1]), (109, ⟨1, 1, 0⟩, [1, 0]),
   (110, ⟨1, 1, 0⟩, [1, 0]), (112, ⟨0, 0, 1⟩, [0, 1]), (113, ⟨1, 0, 0⟩, [1]), (114, ⟨1, 0, 0⟩, [1]), (116, ⟨0, 0, 1⟩, [1]),
   (117, ⟨1, 0, 0⟩, [0, 0, 1]), (118, ⟨1, 0, 0⟩, [0, 0, 1]), (120, ⟨1, 0, 1⟩, [0, 0, 1]), (122, ⟨1, 1, 0⟩, [1, 0]),
   (124, ⟨0, 0, 1⟩, [0, 2]), (125, ⟨1, 0, 0⟩, [0, 1, 1]), (126, ⟨1, 0, 0⟩, [0, 1, 1]), (127, ⟨1, 0, 0⟩, [2]),
   (128, ⟨1, 0, 0⟩, [2]), (129, ⟨1, 0, 0⟩, [2]), (130, ⟨1, 0, 0⟩, [2]), (131, ⟨0, 0, 1⟩, [1]), (132, ⟨0, 0, 1⟩, [1]),
   (133, ⟨1, 0, 0⟩, [0, 1, 1]), (134, ⟨1, 0, 0⟩, [0, 1, 1]), (135, ⟨1, 0, 0⟩, [2]), (136, ⟨1, 0, 0⟩, [2]),
   (137, ⟨1, 0, 0⟩, [2]), (138, ⟨1, 0, 0⟩, [2]), (140, ⟨1, 0, 1⟩, [0, 1, 1, 2]), (141, ⟨1, 1, 0⟩, [0, 1, 1]),
   (142, ⟨1, 1, 0⟩, [0, 1, 1]), (144, ⟨0, 0, 1⟩, [0]), (145, ⟨0, 0, 1⟩, [0]), (151, ⟨0, 0, 1⟩, [0]), (152, ⟨0, 0, 1⟩, [0]),
   (153, ⟨0, 0, 1⟩, [0]), (154, ⟨0, 0, 1⟩, [0]), (158, ⟨0, 0, 1⟩, [1]), (159, ⟨0, 0, 1⟩, [1]), (161, ⟨1, 0, 1⟩, [0, 1]),
   (163, ⟨0, 0, 1⟩, [0, 2]), (165, ⟨0, 0, 1⟩, [0, 2]), (167, ⟨1, 0, 1⟩, [0, 1, 2]), (169, ⟨0, 0, 1⟩, [0]),
   (170, ⟨0, 0, 1⟩, [0]), (171, ⟨0, 0, 1⟩, [0]), (172, ⟨0, 0, 1⟩, [0]), (173, ⟨0, 0, 1⟩, [0]), (176, ⟨0, 0, 1⟩, [1]),
   (178, ⟨0, 0, 1⟩, [0]), (179, ⟨0, 0, 1⟩, [0]), (180, ⟨0, 0, 1⟩, [0]), (181, ⟨0, 0, 1⟩, [0]), (182, ⟨0, 0, 1⟩, [0]),
   (184, ⟨0, 0, 1⟩, [1]), (185, ⟨0, 0, 1⟩, [0]), (186, ⟨0, 0, 1⟩, [0]), (188, ⟨0, 0, 1⟩, [0, 1]), (190, ⟨0, 0, 1⟩, [1]),
   (192, ⟨0, 0, 1⟩, [0, 2]), (193, ⟨0, 0, 1⟩, [1]), (194, ⟨0, 0, 1⟩, [1]), (198, ⟨1, 0, 0⟩, [1]), (201, ⟨1, 0, 0⟩, [0, 1]),
   (203, ⟨2, 0, 0⟩, [0, 1]), (205, ⟨1, 0, 0⟩, [2]), (206, ⟨1, 1, 0⟩, [0, 1]), (208, ⟨1, 0, 0⟩, [0, 1, 2]),
   (210, ⟨2, 0, 0⟩, [0, 1, 2]), (212, ⟨1, 0, 0⟩, [1]), (213, ⟨1, 0, 0⟩, [1]), (214, ⟨2, 0, 0⟩, [0, 1, 2]),
   (218, ⟨1, 0, 0⟩, [0, 2]), (219, ⟨1, 1, 1⟩, [1, 0]), (220, ⟨2, 0, 0⟩, [0, 2]), (222, ⟨1, 0, 0⟩, [0, 1, 1]),
   (223, ⟨1, 0, 0⟩, [0, 1, 3]), (224, ⟨1, 0, 0⟩, [0, 1, 1]), (226, ⟨1, 1, 1⟩, [0, 2, 1]), (227, ⟨2, 0, 0⟩, [0, 1, 1]),
   (228, ⟨2, 0, 0⟩, [0, 1, 1]), (230, ⟨2, 0, 0⟩, [0, 1, 3])]

/-- The product keeps the planes and moves them by a fraction; the reflection keeps the condition of the lattice. -/
def extraRow (k : Nat) (h : V3) (w : List Nat) : Bool :=
  match HallSymbolNotation.tryFromStr (Data.defaultHallName.getD (k - 1) "").toList with
  | some n =>
    match n.seitzMatrices with
    | some ms =>
      let m := genWord (n.gens ms) w
      decide (m.rot.vecMul h = h) && decide (¬ (12 : Int) ∣ V3.dot h m.tr) &&
        n.latticeSymbol.translations.all fun v => decide ((12 : Int) ∣ V3.dot h v)
    | none => false
  | none => false

set_option maxRecDepth 100000 in
theorem extraRows : extraWitness.all (fun r => extraRow r.1 r.2.1 r.2.2) = true := by decide +kernel

theorem extraWitness_numbers : ∀ k ∈ List.range 231, 1 ≤ k → k ∉ symmorphicNumbers → k ≠ 24 → k ≠ 199 →
    k ∈ extraWitness.map (·.1) := by decide +kernel

/-- The translation of the operation is a lattice translation plus the displacement of a point (in twelfths), up to cells. -/
def shiftOk (l : LatticeSymbol) (m : M4) : Bool :=
  ([0, 3, 6, 9].flatMap fun a => [0, 3, 6, 9].flatMap fun b => [0, 3, 6, 9].map fun c => (⟨a, b, c⟩ : V3)).any fun u =>
    l.translations.any fun v =>
      decide ((12 : Int) ∣ m.tr.x - v.x - u.x + (m.rot.mulVec u).x) && decide ((12 : Int) ∣ m.tr.y - v.y - u.y + (m.rot.mulVec u).y) &&
        decide ((12 : Int) ∣ m.tr.z - v.z - u.z + (m.rot.mulVec u).z)

theorem shiftOk_sound {l : LatticeSymbol} {m : M4} (hm : shiftOk l m = true) {h : V3} (hl : LatticeCondition h l.char)
    (hr : m.rot.vecMul h = h) : (12 : Int) ∣ V3.dot h m.tr := by
  obtain ⟨u, -, hu⟩ := List.any_eq_true.1 hm
  obtain ⟨v, hv, e⟩ := List.any_eq_true.1 hu
  simp only [Bool.and_eq_true, decide_eq_true_eq] at e
  obtain ⟨⟨⟨a, ea⟩, b, eb⟩, c, ec⟩ := e
  obtain ⟨j, hj⟩ := (latticeCondition_iff h l).1 hl v hv
  have hx := congrArg V3.x hr
  have hy := congrArg V3.y hr
  have hz := congrArg V3.z hr
  simp only [M3.vecMul] at hx hy hz
  simp only [M3.mulVec] at ea eb ec
  simp only [V3.dot] at hj ⊢
  refine ⟨j + h.x * a + h.y * b + h.z * c, ?_⟩
  linear_combination hj + h.x * ea + h.y * eb + h.z * ec - u.x * hx - u.y * hy - u.z * hz

/-- The rows of 24 and 199. -/
def plainRow (k : Nat) : Bool :=
  match HallSymbolNotation.tryFromStr (Data.defaultHallName.getD (k - 1) "").toList with
  | some n =>
    match n.generalPositions 30 with
    | some (.ok g) => g.deriveFullSets.flatten.all (shiftOk n.latticeSymbol)
    | _ => false
  | none => false

set_option maxRecDepth 100000 in
theorem plainRows : [24, 199].all plainRow = true := by decide +kernel

/-- C115. For every notation with general positions, consistent or not: the group forbids reflections that its translations
alone do not forbid exactly when its number is not symmorphic and not 24 or 199. -/
theorem extra_iff_number {n : HallSymbolNotation} {g : GeneralPositions} (hg : HasPositions n g) :
    ExtraAbsences n ↔ ∃ k, ExtraNumber k ∧ HasTypeNumber n k := by
  obtain ⟨k, hk, -⟩ := one_of_230_types hg
  rw [number_unique hg hk fun k h => h.1]
  by_cases hs : k ∈ symmorphicNumbers
  · exact iff_of_false (symmorphic_no_extra ((symmorphic_iff_number hg).2 ⟨k, hs, hk.2⟩)) fun h => h.2.1 hs
  obtain ⟨⟨l1, l2⟩, code, h, n', e1, e2, e3, e4, e5⟩ := hk
  obtain ⟨n₁, g', cc, -, h2, h3, h4, -⟩ := tabulated_usable code h (.inr ⟨_, e1, e3⟩)
  rw [e4] at h2
  obtain rfl := Option.some.inj h2
  have e3' : Data.defaultHallName[k - 1]? = some h := e3
  rw [e5.extra]
  by_cases hp : k = 24 ∨ k = 199
  · refine iff_of_false ?_ fun h => hp.elim h.2.2.1 h.2.2.2
    have hrow : plainRow k = true := List.all_eq_true.1 plainRows k (by rcases hp with rfl | rfl <;> decide)
    unfold plainRow at hrow
    rw [List.getD_eq_getElem?_getD, e3', Option.getD_some, e4] at hrow
    simp only at hrow
    split at hrow
    · rename_i g₁ hg₁
      refine no_extra_listed ⟨30, hg₁⟩ h4 fun h hl m hm hr => ?_
      exact shiftOk_sound (List.all_eq_true.1 hrow m hm) hl hr
    · cases hrow
  · push Not at hp
    refine iff_of_true ?_ ⟨⟨l1, l2⟩, hs, hp.1, hp.2⟩
    obtain ⟨⟨k', h', w⟩, hr, rfl⟩ := List.mem_map.1 (extraWitness_numbers k (List.mem_range.2 (by omega)) l1 hs hp.1 hp.2)
    have hrow := List.all_eq_true.1 extraRows _ hr
    simp only at hrow e3'
    unfold extraRow at hrow
    rw [List.getD_eq_getElem?_getD, e3', Option.getD_some, e4] at hrow
    simp only at hrow
    split at hrow
    · rename_i ms hms
      simp only [Bool.and_eq_true, decide_eq_true_eq, List.all_eq_true] at hrow
      obtain ⟨⟨r1, r2⟩, r3⟩ := hrow
      refine ⟨h', ⟨_, genWord_mem hms w, (V3.dot h' (genWord (n'.gens ms) w).tr : Int) / 12, ?_, fun p => by rw [phase_act, r1]⟩,
        not_forbidden h4 ((latticeCondition_iff _ _).2 r3)⟩
      intro j hj
      apply r2
      refine ⟨j, ?_⟩
      have : (V3.dot h' (genWord (n'.gens ms) w).tr : ℚ) = 12 * j := by linarith
      exact_mod_cast this
    · cases hrow

/-- `P 2ac 2ab` (number 19) has positions and forbids 1 0 0, which its translations do not. -/
example : HasPositions (hall "P 2ac 2ab") (positionsOf "P 2ac 2ab") ∧ Absent (hall "P 2ac 2ab") ⟨1, 0, 0⟩ ∧
    ¬ ForbiddenByTranslation (hall "P 2ac 2ab") ⟨1, 0, 0⟩ := by
  have hg : HasPositions (hall "P 2ac 2ab") (positionsOf "P 2ac 2ab") := positionsOf_spec (by decide +kernel)
  have hn : Consistent (hall "P 2ac 2ab") := consistent_by_check (by decide +kernel)
  refine ⟨hg, (absent_iff_listed hg hn _).2 (by decide +kernel), not_forbidden hn ?_⟩
  rw [show (hall "P 2ac 2ab").latticeSymbol.char = .P by decide +kernel]
  trivial

end Verif
