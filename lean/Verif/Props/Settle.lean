import Verif.Props.Parsing

/-! # Printing settles (C91) -/

namespace Verif

/-- Printing and reading back, on the matrix symbols. -/
def rereadAll (l : List MatrixSymbol) : List MatrixSymbol := restore (l.map reread)

theorem first_settles (m : MatrixSymbol) :
    restoreFirst (reread (restoreFirst (reread m))) = restoreFirst (reread m) := by
  obtain ⟨sg, f, sub, d, a, trs⟩ := m
  cases d <;> cases a <;> rfl

theorem second_settles (p : NFold) (m : MatrixSymbol) :
    restoreSecond p (reread (restoreSecond p (reread (restoreSecond p m)))) = restoreSecond p (reread (restoreSecond p m)) := by
  obtain ⟨sg, f, sub, d, a, trs⟩ := m
  cases p <;> cases f <;> cases d <;> cases a <;> rfl

theorem third_settles (m : MatrixSymbol) :
    restoreThird (reread (restoreThird (reread (restoreThird (reread (restoreThird m))))))
      = restoreThird (reread (restoreThird (reread (restoreThird m)))) ∧
    (restoreThird (reread (restoreThird (reread (restoreThird m))))).text
      = (restoreThird (reread (restoreThird m))).text := by
  obtain ⟨sg, f, sub, d, a, trs⟩ := m
  cases f <;> cases d <;> cases a <;> exact ⟨rfl, rfl⟩

theorem other_settles (m : MatrixSymbol) : reread (reread m) = reread m := by
  obtain ⟨sg, f, sub, d, a, trs⟩ := m
  cases d <;> cases a <;> rfl

theorem rereadAll_settles (raws : List MatrixSymbol) :
    rereadAll (rereadAll (rereadAll (restore raws))) = rereadAll (rereadAll (restore raws)) ∧
    (rereadAll (rereadAll (restore raws))).map MatrixSymbol.text = (rereadAll (restore raws)).map MatrixSymbol.text := by
  match raws with
  | [] => exact ⟨rfl, rfl⟩
  | [x] =>
    simp only [rereadAll, restore, List.map_cons, List.map_nil, first_settles, and_self]
  | [x, y] =>
    have f1 : ∀ m, (reread m).nfoldBody = m.nfoldBody := fun _ => rfl
    simp only [rereadAll, restore, List.map_cons, List.map_nil, first_settles, f1, restoreFirst_fold, second_settles, and_self]
  | x :: y :: z :: rest =>
    have f1 : ∀ m, (reread m).nfoldBody = m.nfoldBody := fun _ => rfl
    have f2 : ∀ l : List MatrixSymbol, (l.map reread).map reread = l.map reread := by
      intro l; rw [List.map_map]; exact List.map_congr_left fun m _ => other_settles m
    simp only [rereadAll, restore, List.map_cons, first_settles, f1, restoreFirst_fold, second_settles,
      (third_settles z).1, f2, (third_settles z).2, and_self]

theorem tryFromStr_read {s : List Char} {n : HallSymbolNotation} {r : List Char} (h : parseHallSymbol s = some (n, r)) :
    HallSymbolNotation.tryFromStr s = some n := by
  unfold HallSymbolNotation.tryFromStr; rw [h]; rfl

/-- C91. Printing and reading back settles: printing a parsed notation and reading the text gives a notation whose printed
text no longer changes, and after a second reading the notation does not change any more either. -/
theorem display_settles {s : List Char} {n : HallSymbolNotation} (h : HallSymbolNotation.tryFromStr s = some n) :
    ∃ n₁ n₂, HallSymbolNotation.tryFromStr n.text = some n₁ ∧ HallSymbolNotation.tryFromStr n₁.text = some n₂ ∧
      HallSymbolNotation.tryFromStr n₂.text = some n₂ ∧ n₂.text = n₁.text ∧ PrintsFaithfully n₂ := by
  have step : ∀ {s : List Char} {n : HallSymbolNotation}, HallSymbolNotation.tryFromStr s = some n →
      HallSymbolNotation.tryFromStr n.text = some ⟨n.latticeSymbol, rereadAll n.matrixSymbols, n.originShift⟩ := by
    intro s n h
    exact tryFromStr_read (display_reparsed h)
  obtain ⟨raws, a, b, c, hm, hp, ho⟩ := tryFromStr_some h
  have h1 := step h
  have h2 := step h1
  have h3 := step h2
  simp only [] at h2 h3
  rw [hm] at h1 h2 h3
  obtain ⟨e1, e2⟩ := rereadAll_settles raws
  rw [e1] at h3
  refine ⟨_, _, h1, h2, h3, ?_, ?_⟩
  · unfold HallSymbolNotation.text
    simp only []
    rw [e2]
  · obtain ⟨n', hn', hiff⟩ := display_roundtrip_partial h2
    refine hiff.1 ?_
    have := tryFromStr_read hn'
    rw [h3] at this
    exact (Option.some.inj this).symm

/-- One reading is not enough for the notation: the third symbol of `P 2 2 3y` changes twice, its text once. -/
example : ∃ n n₁ n₂, HallSymbolNotation.tryFromStr "P 2 2 3y".toList = some n ∧
    HallSymbolNotation.tryFromStr n.text = some n₁ ∧ HallSymbolNotation.tryFromStr n₁.text = some n₂ ∧ n ≠ n₁ ∧ n₁ ≠ n₂ ∧
    n.text = "P 2 2x 3y*".toList ∧ n₁.text = "P 2 2x 3*".toList ∧ n₂.text = "P 2 2x 3*".toList :=
  ⟨(HallSymbolNotation.tryFromStr "P 2 2 3y".toList).get (by decide +kernel),
   (HallSymbolNotation.tryFromStr "P 2 2x 3y*".toList).get (by decide +kernel),
   (HallSymbolNotation.tryFromStr "P 2 2x 3*".toList).get (by decide +kernel), by decide +kernel⟩

end Verif
