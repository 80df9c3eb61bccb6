import Verif.Props.Subgroups

/-! # What the lattice letter adds (C89) -/

namespace Verif

/-- The same notation with lattice letter P. -/
def HallSymbolNotation.primitive (n : HallSymbolNotation) : HallSymbolNotation :=
  { n with latticeSymbol := { n.latticeSymbol with char := .P } }

theorem namesLess_primitive (n : HallSymbolNotation) : NamesLess n.primitive n :=
  ⟨fun v h => by
    have : v = V3.zero := List.mem_singleton.1 h
    rw [this]; exact n.latticeSymbol.char.zero_mem, id, fun _ h => h, rfl⟩

/-- Every operation has a partner with the same rotation part in the group of the primitive notation. -/
theorem primitive_partner {n : HallSymbolNotation} {f : Pt → Pt} (hf : SpaceGroup n f) :
    ∀ a : M4, f = a.act → ∃ b : M4, SpaceGroup n.primitive b.act ∧ b.rot = a.rot := by
  have triv : ∃ b : M4, SpaceGroup n.primitive b.act ∧ b.rot = M3.one :=
    ⟨trMat V3.zero, by rw [trMat, M4.act_mk_one _ _ _ rfl]; exact .one, rfl⟩
  have same : ∀ {f : Pt → Pt}, SpaceGroup n.primitive f → ∀ a : M4, f = a.act →
      ∃ b : M4, SpaceGroup n.primitive b.act ∧ b.rot = a.rot := by
    rintro f h a rfl
    exact ⟨a, h, rfl⟩
  induction hf with
  | one => exact same .one
  | cell k => exact same (.cell k)
  | centring hv =>
    intro a e
    rw [← trMat_act] at e
    rw [← (M4.act_inj e).1]; exact triv
  | inversion hm => exact same (.inversion hm)
  | generator hs hg => exact same (.generator (n := n.primitive) hs hg)
  | comp h1 h2 ih1 ih2 =>
    intro a e
    obtain ⟨x, rfl, _, _⟩ := h1.isOp
    obtain ⟨y, rfl, _, _⟩ := h2.isOp
    obtain ⟨x', hx, ex⟩ := ih1 x rfl
    obtain ⟨y', hy, ey⟩ := ih2 y rfl
    rw [M4.act_comp] at e
    exact ⟨⟨x'.rot.mul y'.rot, (x'.rot.mulVec y'.tr).add x'.tr, V3.zero, 1⟩, by rw [← M4.act_comp]; exact hx.comp hy,
      by rw [← (M4.act_inj e).1, ← ex, ← ey]⟩
  | @inv f f' h0 h1 h2 ih =>
    intro a e
    obtain ⟨x, rfl, _, hu⟩ := h0.isOp
    subst e
    obtain ⟨x', hx, ex⟩ := ih x rfl
    refine ⟨x'.uinv, hx.uinv, ?_⟩
    have e1 : (trMat V3.zero).act = id := M4.act_mk_one _ _ _ rfl
    rw [M4.act_comp] at h1
    have h3 := (M4.act_inj (h1.trans e1.symm)).1
    have h4 : a.rot = x.rot.uinv := M3.mul_left_cancel hu (by rw [M3.mul_uinv hu]; exact h3)
    rw [h4, ← ex]; rfl

/-- C89. The lattice letter adds exactly the centring translations: the group of a consistent notation consists of the
operations of the same notation with letter P, each followed by each centring translation. -/
theorem lattice_letter_group {n : HallSymbolNotation} (hn : Consistent n) (f : Pt → Pt) :
    SpaceGroup n f ↔ ∃ v ∈ n.latticeSymbol.translations, ∃ g, SpaceGroup n.primitive g ∧
      f = fun p => (g p).addTwelfths v := by
  constructor
  · intro hf
    obtain ⟨a, rfl, _, _⟩ := hf.isOp
    obtain ⟨b, hb, e⟩ := primitive_partner hf a rfl
    have hb' := more_symbols_larger_group (namesLess_primitive n) hb
    obtain ⟨τ, ⟨v, hv, k, hτ⟩, e'⟩ := eq_lattice_comp e.symm (hn.latCong hf hb' e.symm)
    refine ⟨v, hv, _, (SpaceGroup.cell (n := n.primitive) k).comp hb, ?_⟩
    rw [e']
    funext p
    simp only [Function.comp, hτ]
    ext <;> simp only [Pt.addCell, Pt.addTwelfths] <;> ring
  · rintro ⟨v, hv, g, hg, rfl⟩
    exact (SpaceGroup.centring hv).comp (more_symbols_larger_group (namesLess_primitive n) hg)

/-- C89. For a consistent notation the letter P notation has the same rotations, in the same order, and as many times fewer
operations in its full list as there are centring translations. -/
theorem lattice_letter_count {n : HallSymbolNotation} {g g' : GeneralPositions} (hn : Consistent n)
    (hp : Consistent n.primitive) (hg : HasPositions n g) (hg' : HasPositions n.primitive g') :
    g.corePositionSet.map M4.rot = g'.corePositionSet.map M4.rot ∧
    g.deriveFullSets.flatten.length = n.latticeSymbol.translations.length * g'.deriveFullSets.flatten.length := by
  have h1 := same_symbols_same_rotations (n := n) (n' := n.primitive) rfl rfl hn hp hg hg'
  refine ⟨h1, ?_⟩
  have h2 := congrArg List.length h1
  rw [List.length_map, List.length_map] at h2
  rw [full_length hg, full_length hg']
  change _ * g.corePositionSet.length = _ * (1 * g'.corePositionSet.length)
  rw [h2, Nat.one_mul]

/-- `-C 2c 2` and `-P 2c 2` are both consistent and have positions. -/
example : Consistent sampleN ∧ sampleN.primitive = hall "-P 2c 2" ∧ Consistent (hall "-P 2c 2") ∧
    HasPositions sampleN sampleG ∧ HasPositions (hall "-P 2c 2") (positionsOf "-P 2c 2") :=
  ⟨sample_consistent, by decide +kernel, consistent_by_check (by decide +kernel), sample_positions,
    positionsOf_spec (by decide +kernel)⟩

/-- Both hypotheses of `lattice_letter_count` are needed: `F 2 -2d` is consistent, but its primitive notation `P 2 -2d`
generates translations of its own and lists 6 operations, although `lattice_letter_group` applies. -/
example : Consistent (hall "F 2 -2d") ∧ (hall "F 2 -2d").primitive = hall "P 2 -2d" ∧ ¬ Consistent (hall "P 2 -2d") ∧
    (positionsOf "F 2 -2d").numOfGeneralPos = 4 ∧ (positionsOf "P 2 -2d").numOfGeneralPos = 6 := by
  have h : HasPositions (hall "P 2 -2d") (positionsOf "P 2 -2d") := positionsOf_spec (by decide +kernel)
  have e : (positionsOf "P 2 -2d").numOfGeneralPos = 6 := by decide +kernel
  have c := consistent_by_check (s := "F 2 -2d") (by decide +kernel)
  refine ⟨c, by decide +kernel, fun hn => ?_, by decide +kernel, e⟩
  have := same_symbols_same_rotations (n := hall "F 2 -2d") (n' := hall "P 2 -2d") (by decide +kernel) (by decide +kernel)
    c hn (positionsOf_spec (by decide +kernel)) h
  have h2 := congrArg List.length this
  revert h2
  decide +kernel

end Verif
