import Verif.Props.Text
import Verif.Props.Generation
import Verif.Props.Lattice
import Verif.Spec.HallGroup

/-! # The sets of positions of a notation (C40, C44) -/

namespace Verif

/-- C44. The translations of each lattice letter are zero and the centring vectors of the International Tables, in order. -/
theorem letter_translations (l : LatticeSymbol) :
    l.translations.map (fun v => (⟨v.x / 12, v.y / 12, v.z / 12⟩ : Pt)) = ⟨0, 0, 0⟩ :: centringVectors l.char := by
  unfold LatticeSymbol.translations
  cases l.char <;> simp only [Lattices.translations, centringVectors, List.map_cons, List.map_nil, List.cons.injEq, Pt.mk.injEq,
    and_true] <;> norm_num

/-- C40. The positions computed for a notation: one set for no translation and one for each centring vector of the lattice
letter (`num_of_translations` sets), the `k`-th operation of a set acting as the `k`-th core operation followed by the set's
translation, up to whole cells. -/
theorem full_sets_of_notation {n : HallSymbolNotation} {g : GeneralPositions} (hg : HasPositions n g) :
    g.deriveFullSets.length = n.latticeSymbol.numOfTranslations ∧
    n.latticeSymbol.numOfTranslations = (centringVectors n.latticeSymbol.char).length + 1 ∧
    ∀ (i : Nat) (q : Pt), ((⟨0, 0, 0⟩ : Pt) :: centringVectors n.latticeSymbol.char)[i]? = some q →
      ∃ set : List M4, g.deriveFullSets[i]? = some set ∧ set.length = g.numOfGeneralPos ∧
        ∀ (k : Nat) (c : M4), g.corePositionSet[k]? = some c → ∃ m : M4, set[k]? = some m ∧
          SameModCell m.act (fun p => ⟨(c.act p).x + q.x, (c.act p).y + q.y, (c.act p).z + q.z⟩) := by
  obtain ⟨r, h⟩ := hg
  obtain ⟨st, hF, hp, hl⟩ := final_of_ok h
  have hl' : g.latticeTranslations = n.latticeSymbol.translations := hl
  obtain ⟨h1, h2⟩ := full_sets_shape g
  rw [hl'] at h1 h2
  have hlen : n.latticeSymbol.numOfTranslations = (centringVectors n.latticeSymbol.char).length + 1 := by
    unfold LatticeSymbol.numOfTranslations
    cases n.latticeSymbol.char <;> rfl
  refine ⟨?_, hlen, fun i q hq => ?_⟩
  · rw [h1, hlen, ← List.length_cons (a := (⟨0, 0, 0⟩ : Pt)), ← letter_translations, List.length_map]
  · rw [← letter_translations, List.getElem?_map, Option.map_eq_some_iff] at hq
    obtain ⟨v, hv, rfl⟩ := hq
    obtain ⟨set, s1, s2, s3⟩ := h2 i v hv
    refine ⟨set, s1, s2, fun k c hc => ?_⟩
    obtain ⟨m, m1, -, -, -, m2⟩ := s3 k c hc
    exact ⟨m, m1, m2⟩

/-- `-C 2c 2`: two sets of eight, the second moved by (1/2, 1/2, 0). -/
example : HasPositions sampleN sampleG ∧ sampleG.deriveFullSets.length = 2 ∧
    ((⟨0, 0, 0⟩ : Pt) :: centringVectors sampleN.latticeSymbol.char)[1]? = some ⟨1 / 2, 1 / 2, 0⟩ := by
  refine ⟨sample_positions, by decide +kernel, ?_⟩
  rw [show sampleN.latticeSymbol.char = .C by decide +kernel]
  rfl

end Verif
