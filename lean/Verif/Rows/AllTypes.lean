import Verif.Rows.Types1
import Verif.Rows.Types2
import Verif.Rows.Types3
import Verif.Rows.Types4
import Verif.Rows.Types5
import Verif.Rows.Types6
import Verif.Rows.Types7

/-! # All space-group types are different -/

namespace Verif

set_option maxRecDepth 100000

theorem classData_ok : classData.all ClassData.check = true :=
  all_ok class1_ok (all_ok class2_ok (all_ok class3_ok (all_ok class6_ok (all_ok class10_ok (all_ok class16_ok (all_ok class25_ok (all_ok class47_ok (all_ok class75_ok (all_ok class81_ok (all_ok class83_ok (all_ok class89_ok (all_ok class99_ok (all_ok class111_ok (all_ok class123_ok (all_ok class143_ok (all_ok class147_ok (all_ok class149_ok (all_ok class156_ok (all_ok class162_ok (all_ok class168_ok (all_ok class174_ok (all_ok class175_ok (all_ok class177_ok (all_ok class183_ok (all_ok class187_ok (all_ok class191_ok (all_ok class195_ok (all_ok class200_ok (all_ok class207_ok (all_ok class215_ok (all_ok class221_ok rfl)))))))))))))))))))))))))))))))

/-- The crystal class, by its counts. -/
def ClassData.key (c : ClassData) : Option ClassCounts := (c.members.head?).bind fun m => crystalClass m.1

theorem keys_nodup : (classData.map ClassData.key).Nodup := by decide +kernel

theorem members_key : ∀ c ∈ classData, ∀ m ∈ c.members, crystalClass m.1 = c.key := by
  have : classData.all (fun c => c.members.all fun m => decide (crystalClass m.1 = c.key)) = true := by decide +kernel
  intro c hc m hm
  exact of_decide_eq_true (List.all_eq_true.1 (List.all_eq_true.1 this c hc) m hm)

/-- Pairs that differ in the sense of their screws. -/
structure Chiral where
  a : Nat
  b : Nat
  ha : String
  hb : String
  kind : RotationType
  k : Nat

/-- The eleven pairs: the first has a screw 4₁ or 3₁, the second has not. -/
def chirals : List Chiral := [
  ⟨76, 78, "P 4w", "P 4cw", .N4, 4⟩,
  ⟨91, 95, "P 4w 2c", "P 4cw 2c", .N4, 4⟩,
  ⟨92, 96, "P 4abw 2nw", "P 4nw 2abw", .N4, 4⟩,
  ⟨144, 145, "P 31", "P 32", .N3, 3⟩,
  ⟨151, 153, "P 31 2c (0 0 1)", "P 32 2c (0 0 -1)", .N3, 3⟩,
  ⟨152, 154, "P 31 2\"", "P 32 2\"", .N3, 3⟩,
  ⟨169, 170, "P 61", "P 65", .N3, 3⟩,
  ⟨172, 171, "P 64", "P 62", .N3, 3⟩,
  ⟨178, 179, "P 61 2 (0 0 -1)", "P 65 2 (0 0 1)", .N3, 3⟩,
  ⟨181, 180, "P 64 2c (0 0 -1)", "P 62 2c (0 0 1)", .N3, 3⟩,
  ⟨213, 212, "P 4bd 2ab 3", "P 4acd 2ab 3", .N4, 4⟩]

/-- The check of a pair. -/
def Chiral.check (p : Chiral) : Bool :=
  match parseHallSymbol p.ha.toList, parseHallSymbol p.hb.toList with
  | some (n, []), some (n', []) =>
    match n.seitzMatrices, n'.seitzMatrices with
    | some ms, some ms' =>
      checkCert n ms (certList n ms) && checkCert n' ms' (certList n' ms') &&
      decide (n.latticeSymbol.char = .P) && decide (n'.latticeSymbol.char = .P) &&
      decide ((p.kind = .N4 ∧ p.k = 4) ∨ (p.kind = .N3 ∧ p.k = 3)) &&
      screwB p.kind (certList n ms) && notScrewB p.kind p.k (certList n' ms')
    | _, _ => false
  | _, _ => false

theorem chirals_ok : chirals.all Chiral.check = true := by decide +kernel

theorem chiral_differ {p : Chiral} (hp : p ∈ chirals) {n n' : HallSymbolNotation}
    (hn : parseHallSymbol p.ha.toList = some (n, [])) (hn' : parseHallSymbol p.hb.toList = some (n', [])) : ¬ SameType n n' := by
  have h := List.all_eq_true.1 chirals_ok p hp
  unfold Chiral.check at h
  rw [hn, hn'] at h
  simp only [] at h
  split at h
  · rename_i ms ms' hms hms'
    simp only [Bool.and_eq_true, decide_eq_true_eq] at h
    obtain ⟨⟨⟨⟨⟨⟨h1, h2⟩, h3⟩, h4⟩, h5⟩, h6⟩, h7⟩ := h
    intro hs
    exact screw_false (described_certList hms' h2) h4 h7 (hs.screw (screw_true (described_certList hms h1) h3 h5 h6))
  · cases h

/-- Equality of symbols. -/
def strEqB (a b : String) : Bool := a == b

/-- Two types of the same class differ in a truth value or in the sense of their screws. -/
def separatedB (m m' : Nat × String × List Bool) : Bool :=
  ! bitsEqB m.2.2 m'.2.2 || chirals.any fun p =>
    (Nat.beq p.a m.1 && Nat.beq p.b m'.1 && strEqB p.ha m.2.1 && strEqB p.hb m'.2.1) ||
    (Nat.beq p.b m.1 && Nat.beq p.a m'.1 && strEqB p.hb m.2.1 && strEqB p.ha m'.2.1)

theorem members_separated : ∀ c ∈ classData, ∀ m ∈ c.members, ∀ m' ∈ c.members, m.1 ≠ m'.1 → separatedB m m' = true := by
  have : classData.all (fun c => c.members.all fun m => c.members.all fun m' => Nat.beq m.1 m'.1 || separatedB m m') = true := by
    decide +kernel
  intro c hc m hm m' hm' hne
  have := List.all_eq_true.1 (List.all_eq_true.1 (List.all_eq_true.1 this c hc) m hm) m' hm'
  rw [Bool.or_eq_true] at this
  exact this.resolve_left fun e => hne (Nat.eq_of_beq_eq_true e)

/-- Two different types of the same class are not the same. -/
theorem members_differ {c : ClassData} (hc : c ∈ classData) {m m' : Nat × String × List Bool} (hm : m ∈ c.members)
    (hm' : m' ∈ c.members) (hne : m.1 ≠ m'.1) {n n' : HallSymbolNotation}
    (hn : parseHallSymbol m.2.1.toList = some (n, [])) (hn' : parseHallSymbol m'.2.1.toList = some (n', [])) :
    ¬ SameType n n' := by
  have hk := List.all_eq_true.1 classData_ok c hc
  simp only [ClassData.check, Bool.and_eq_true, List.all_eq_true] at hk
  obtain ⟨hmods, hmem⟩ := hk
  have hs := members_separated c hc m hm m' hm' hne
  simp only [separatedB, Bool.or_eq_true, Bool.not_eq_true', List.any_eq_true, Bool.and_eq_true, strEqB, beq_iff_eq] at hs
  rcases hs with hs | ⟨p, hp, ⟨⟨⟨_, _⟩, h1⟩, h2⟩ | ⟨⟨⟨_, _⟩, h1⟩, h2⟩⟩
  · refine bits_differ hmods (hmem m hm) (hmem m' hm') ?_ hn hn'
    intro e
    rw [bitsEqB_iff.2 e] at hs
    cases hs
  · exact chiral_differ hp (h1 ▸ hn) (h2 ▸ hn')
  · intro h
    exact chiral_differ hp (h2 ▸ hn') (h1 ▸ hn) h.symm

/-- Every row but one is compared with a type of the list. -/
theorem refs_listed : ∀ r ∈ allRows, r.hall = "I 2ac 2bc" ∨ ∃ c ∈ classData, ∃ m ∈ c.members, m.1 = r.num ∧ m.2.1 = r.ref := by
  have : allRows.all (fun r => r.hall == "I 2ac 2bc" ||
      classData.any fun c => c.members.any fun m => Nat.beq m.1 r.num && strEqB m.2.1 r.ref) = true := by decide +kernel
  intro r hr
  have := List.all_eq_true.1 this r hr
  simp only [Bool.or_eq_true, beq_iff_eq, List.any_eq_true, Bool.and_eq_true, strEqB] at this
  rcases this with h | ⟨c, hc, m, hm, h1, h2⟩
  · exact .inl h
  · exact .inr ⟨c, hc, m, hm, Nat.eq_of_beq_eq_true h1, h2⟩

/-- Rows with different numbers have groups of different types. -/
theorem rows_differ {r s : Row} (hr : r ∈ allRows) (hs : s ∈ allRows) (hne : r.num ≠ s.num) (er : r.hall ≠ "I 2ac 2bc")
    (es : s.hall ≠ "I 2ac 2bc") {n n' k k' : HallSymbolNotation} {L L' : List M4} {cc cc' : ClassCounts}
    (hf : RowFacts r n k L cc) (hf' : RowFacts s n' k' L' cc') : ¬ SameType n n' := by
  intro h
  obtain ⟨c, hc, m, hm, e1, e2⟩ := (refs_listed r hr).resolve_left er
  obtain ⟨c', hc', m', hm', e1', e2'⟩ := (refs_listed s hs).resolve_left es
  have hcc : cc = cc' := by
    have hk := fun t => h.kinds hf.described.card.1 hf'.described.card.1 t
    simp only [hf.kinds, hf'.kinds] at hk
    have h1 := hk .E; have h2 := hk .N2; have h3 := hk .N3; have h4 := hk .N4; have h5 := hk .N6
    have h6 := hk .I; have h7 := hk .M; have h8 := hk .M3; have h9 := hk .M4; have h10 := hk .M6
    cases cc; cases cc'
    simp only [ClassCounts.get] at *
    simp only [ClassCounts.mk.injEq]
    exact ⟨h1, h2, h3, h4, h5, h6, h7, h8, h9, h10⟩
  have hkey : c.key = c'.key := by
    rw [← members_key c hc m hm, ← members_key c' hc' m' hm', e1, e1', hf.cls, hf'.cls, hcc]
  obtain rfl := List.inj_on_of_nodup_map keys_nodup hc hc' hkey
  refine members_differ hc hm hm' (by rw [e1, e1']; exact hne) (e2 ▸ hf.parsedRef) (e2' ▸ hf'.parsedRef) ?_
  exact hf.same.trans (h.trans hf'.same.symm)

end Verif
