import Verif.Proofs.Basic
import Verif.Model.Generate

/-! # Centring translations, congruence modulo the lattice, reduction of translations -/

namespace Verif

instance (a b : V3) : Decidable (V3.Cong a b) := inferInstanceAs (Decidable (_ ∧ _ ∧ _))

theorem Lattices.zero_mem (l : Lattices) : V3.zero ∈ l.translations := by cases l <;> decide

theorem Lattices.head (l : Lattices) : l.translations.head? = some V3.zero := by cases l <;> rfl

theorem Lattices.add_closed (l : Lattices) :
    ∀ a ∈ l.translations, ∀ b ∈ l.translations, ∃ c ∈ l.translations, V3.Cong (a.add b) c := by
  cases l <;> decide +kernel

theorem Lattices.neg_closed (l : Lattices) :
    ∀ a ∈ l.translations, ∃ c ∈ l.translations, V3.Cong a.neg c := by
  cases l <;> decide +kernel

theorem Lattices.range (l : Lattices) :
    ∀ a ∈ l.translations, (0 ≤ a.x ∧ a.x < 12) ∧ (0 ≤ a.y ∧ a.y < 12) ∧ (0 ≤ a.z ∧ a.z < 12) := by
  cases l <;> decide

/-- Congruence modulo the lattice (whole cells and centring). -/
def LatCong (l : LatticeSymbol) (a b : V3) : Prop := ∃ tr ∈ l.translations, V3.Cong a (b.add tr)

theorem LatCong.of_cong (l : LatticeSymbol) {a b : V3} (h : V3.Cong a b) : LatCong l a b :=
  ⟨V3.zero, l.char.zero_mem, by rw [V3.add_zero]; exact h⟩

theorem LatCong.refl (l : LatticeSymbol) (a : V3) : LatCong l a a := .of_cong l (.refl a)

theorem LatCong.symm {l : LatticeSymbol} {a b : V3} (h : LatCong l a b) : LatCong l b a := by
  obtain ⟨tr, ht, hc⟩ := h
  obtain ⟨c, hc', hcc⟩ := l.char.neg_closed tr ht
  refine ⟨c, hc', ?_⟩
  have := hc.add hcc.symm
  have e : (b.add tr).add tr.neg = b := by rw [V3.add_assoc, V3.add_neg_self, V3.add_zero]
  rw [e] at this
  exact this.symm

theorem LatCong.trans {l : LatticeSymbol} {a b c : V3} (h : LatCong l a b) (h' : LatCong l b c) : LatCong l a c := by
  obtain ⟨t, ht, hc⟩ := h
  obtain ⟨t', ht', hc'⟩ := h'
  obtain ⟨u, hu, huc⟩ := l.char.add_closed t' ht' t ht
  refine ⟨u, hu, hc.trans ?_⟩
  have h1 := hc'.add (V3.Cong.refl t)
  refine h1.trans ?_
  rw [V3.add_assoc]
  exact (V3.Cong.refl c).add huc

/-! ## `positive_mod` -/

theorem positiveMod_cong (v : Int) : (12 : Int) ∣ positiveMod v - v := by
  unfold positiveMod base
  split <;> rcases tmod12_cases v with h | h <;> omega

theorem positiveMod_range {v : Int} (h : -12 < v) : 0 ≤ positiveMod v ∧ positiveMod v < 12 := by
  unfold positiveMod base
  split <;> rcases tmod12_cases v with h | h <;> omega

theorem positiveMod_range' (v : Int) : 0 ≤ positiveMod v ∧ positiveMod v ≤ 12 := by
  unfold positiveMod base
  split <;> rcases tmod12_cases v with h | h <;> omega

theorem cong_map_positiveMod (v : V3) : V3.Cong (v.map positiveMod) v :=
  ⟨positiveMod_cong _, positiveMod_cong _, positiveMod_cong _⟩

/-- The components lie in `0..12`. -/
def V3.Red (v : V3) : Prop := (0 ≤ v.x ∧ v.x < 12) ∧ (0 ≤ v.y ∧ v.y < 12) ∧ (0 ≤ v.z ∧ v.z < 12)

/-- The components are above -12. -/
def V3.Above (v : V3) : Prop := -12 < v.x ∧ -12 < v.y ∧ -12 < v.z

theorem V3.Above.red {v : V3} (h : v.Above) : (v.map positiveMod).Red :=
  ⟨positiveMod_range h.1, positiveMod_range h.2.1, positiveMod_range h.2.2⟩

theorem V3.Above.add {v t : V3} (h : v.Above) (ht : t.Red) : (v.add t).Above := by
  obtain ⟨h1, h2, h3⟩ := h
  obtain ⟨⟨_, _⟩, ⟨_, _⟩, ⟨_, _⟩⟩ := ht
  refine ⟨?_, ?_, ?_⟩ <;> simp <;> omega

theorem V3.Red.above {v : V3} (h : v.Red) : v.Above := by
  obtain ⟨⟨_, _⟩, ⟨_, _⟩, ⟨_, _⟩⟩ := h
  exact ⟨by omega, by omega, by omega⟩

theorem V3.Red.eq_of_cong {a b : V3} (ha : a.Red) (hb : b.Red) (h : V3.Cong a b) : a = b := by
  obtain ⟨⟨_, _⟩, ⟨_, _⟩, ⟨_, _⟩⟩ := ha
  obtain ⟨⟨_, _⟩, ⟨_, _⟩, ⟨_, _⟩⟩ := hb
  obtain ⟨h1, h2, h3⟩ := h
  exact V3.ext (by omega) (by omega) (by omega)

theorem LatticeSymbol.red (l : LatticeSymbol) {t : V3} (h : t ∈ l.translations) : t.Red := l.char.range t h

theorem above_map_tmod (v : V3) : (v.map (fun x => Int.tmod x base)).Above :=
  ⟨(tmod12_bounds _).1, (tmod12_bounds _).1, (tmod12_bounds _).1⟩

/-! ## `translation_minimal_repr` -/

theorem foldl_minStep_mem (l : List V3) (init : V3) : l.foldl minStep init = init ∨ l.foldl minStep init ∈ l := by
  induction l generalizing init with
  | nil => exact .inl rfl
  | cons a l ih =>
    rw [List.foldl_cons]
    rcases ih (minStep init a) with h | h
    · rw [h]
      unfold minStep
      split
      · exact .inr (List.mem_cons_self ..)
      · exact .inl rfl
    · exact .inr (List.mem_cons_of_mem _ h)

/-- The minimal representative is the plain reduction of `t + tr` for one of the centring translations. -/
theorem minimalRepr_eq (l : LatticeSymbol) (t : V3) :
    ∃ tr ∈ l.translations, l.minimalRepr t = (t.add tr).map positiveMod := by
  unfold LatticeSymbol.minimalRepr
  rcases foldl_minStep_mem (l.translations.map fun tr => (t.add tr).map positiveMod) (t.map positiveMod) with h | h
  · exact ⟨V3.zero, l.char.zero_mem, by rw [h, V3.add_zero]⟩
  · obtain ⟨tr, htr, he⟩ := List.mem_map.1 h
    exact ⟨tr, htr, he.symm⟩

theorem minimalRepr_latCong (l : LatticeSymbol) (t : V3) : LatCong l (l.minimalRepr t) t := by
  obtain ⟨tr, htr, he⟩ := minimalRepr_eq l t
  exact ⟨tr, htr, by rw [he]; exact cong_map_positiveMod _⟩

theorem minimalRepr_red (l : LatticeSymbol) {t : V3} (h : t.Above) : (l.minimalRepr t).Red := by
  obtain ⟨tr, htr, he⟩ := minimalRepr_eq l t
  rw [he]
  exact (h.add (l.red htr)).red

end Verif
