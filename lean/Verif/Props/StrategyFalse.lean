import Verif.Props.StrategyExamples
import Verif.Spec.Play
import Verif.Spec.Examples

/-!
# Claims about the strategy solver that are false of the code

`StrategyExamples` is imported so that the two files, which need much memory, are not checked at the same time.
-/
namespace Verif.Props

open Verif Verif.Strat

set_option maxRecDepth 100000

private theorem gives {g : Grid} (hg : WellFormed g) {calls : List Call} {sts : List Strategy}
    {p : (Bool × Solver × Grid) × Bool × Grid × Deductions → Bool}
    (h : claims (start g calls) (fun y => claims (result sts y.2.1) (fun r => p (y, r))) = true) :
    ∃ b s g' r, Reaches b s g' (fun _ _ => False) ∧ Returned 1000 sts s r ∧
      ∃ ok, (ok = true → s.solve 1000 sts = .ok (.ok r)) ∧ (ok = false → s.solve 1000 sts = .ok (.error r)) ∧
        p ((b, s, g'), ok, r) = true := by
  obtain ⟨⟨b, s, g'⟩, h1, h2⟩ := claims_spec h
  obtain ⟨⟨ok, r⟩, h3, h4⟩ := claims_spec h2
  refine ⟨b, s, g', r, start_reaches hg h1, ?_, ok, ?_, ?_, h4⟩
  · cases ok with
    | true => exact Or.inl (result_ok h3)
    | false => exact Or.inr (result_err h3)
  · rintro rfl; exact result_ok h3
  · rintro rfl; exact result_err h3

/-! ## `cell_state` while a contradiction is visible -/

/-- The first eight rows of a solved grid, and a wrong digit in the last one. -/
def wrongLastRow : Grid := #v[
  4,8,3,9,2,1,6,5,7, 9,6,7,3,4,5,8,2,1, 2,5,1,8,7,6,4,9,3,
  5,4,8,1,3,2,9,7,6, 7,2,9,5,6,4,1,3,8, 1,3,6,7,9,8,2,4,5,
  3,7,2,6,8,9,5,1,4, 8,1,4,2,5,3,7,6,9, 9,0,0,0,0,0,0,0,0]

/-- Look at a cell before and between inserting the rest of the last row. -/
def lookAndInsert : List Call := [.look 0,
  .insert ⟨73, 0⟩, .insert ⟨74, 1⟩, .insert ⟨75, 2⟩, .insert ⟨76, 3⟩, .look 0,
  .insert ⟨77, 4⟩, .insert ⟨78, 5⟩, .insert ⟨79, 6⟩, .insert ⟨80, 7⟩, .look 0]

/-- **C49** is false after `cell_state` was called on a contradictory sudoku: `solve` returns `Ok` with a grid that is not
valid. -/
theorem C49_looked_false : ∃ s g r, Reaches true s g (fun _ _ => False) ∧
    s.solve 1000 [.xyWing, .nakedSingles] = .ok (.ok r) ∧ ¬ Solved r.1 := by
  obtain ⟨b, s, g', r, h1, -, ok, h2, -, h3⟩ := gives (g := wrongLastRow) (calls := lookAndInsert)
    (sts := [.xyWing, .nakedSingles]) (p := fun x => x.1.1 && x.2.1 && !decide (Solved x.2.2.1))
    (by decide +kernel) (by decide +kernel)
  simp only [Bool.and_eq_true, Bool.not_eq_true', decide_eq_false_iff_not] at h3
  obtain ⟨⟨rfl, h4⟩, h5⟩ := h3
  exact ⟨s, g', r, h1, h2 h4, h5⟩

/-! ## Inserting an excluded digit -/

/-- A grid state with 76 digits of a solved grid; in the other cells the digit of that grid is excluded. -/
def excludedRest : Vector CellState 81 := Vector.ofFn (fun i : Fin 81 =>
  if i.val < 76 then
    if h : Ex.solved[i].toNat - 1 < 9 then .digit ⟨Ex.solved[i].toNat - 1, h⟩ else .candidates 0
  else .candidates (0b111111111#16 ^^^ (1#16 <<< (Ex.solved[i].toNat - 1))))

/-- **C49** is false after inserting digits that the grid state excludes: `solve` returns `Ok` with these digits. -/
theorem C49_excluded_false : ∃ s g X r, Reaches false s g X ∧ s.solve 1000 [.nakedSingles] = .ok (.ok r) ∧
    ¬ SolutionOf g X r.1 := by
  have h : claims (startState excludedRest
      [.insert ⟨76, 0⟩, .insert ⟨77, 6⟩, .insert ⟨78, 2⟩, .insert ⟨79, 7⟩, .insert ⟨80, 1⟩])
      (fun y => claims (result [.nakedSingles] y.2.1) (fun r => !y.1 && r.1 && decide (r.2.1[(76 : Fin 81)] = 1))) = true := by
    decide +kernel
  obtain ⟨⟨b, s, g'⟩, h1, h2⟩ := claims_spec h
  obtain ⟨⟨ok, r⟩, h3, h4⟩ := claims_spec h2
  simp only [Bool.and_eq_true, Bool.not_eq_true', decide_eq_true_eq] at h4
  obtain ⟨⟨rfl, rfl⟩, h5⟩ := h4
  refine ⟨s, g', _, r, startState_reaches h1, result_ok h3, fun hs => ?_⟩
  refine hs.2 76 0 ?_ h5
  show (0 : Nat) ∉ elems (0b111111111#16 ^^^ (1#16 <<< (Ex.solved[(76 : Fin 81)].toNat - 1)))
  decide +kernel

/-! ## Candidates of a contradictory sudoku -/

/-- The last cell of the first row has no possible digit. -/
def noDigitLeft : Grid := #v[
  1,2,3,4,5,6,7,8,0, 0,0,0,0,0,0,0,0,0, 0,0,0,0,0,0,0,0,0,
  0,0,0,0,0,0,0,0,9, 0,0,0,0,0,0,0,0,0, 0,0,0,0,0,0,0,0,0,
  0,0,0,0,0,0,0,0,0, 0,0,0,0,0,0,0,0,0, 0,0,0,0,0,0,0,0,0]

/-- **C42** is false for sudokus with a visible contradiction: for a fresh solver, `cell_state` reports a candidate that
stands in the block of the cell. -/
theorem C42_stale_candidates : ∃ s, Solver.fromSudoku noDigitLeft = .ok s ∧ ∃ s' cands,
    s.cellState 1000 9 = .ok (s', .candidates cands) ∧ 0 ∈ elems cands ∧
    noDigitLeft[(0 : Fin 81)] = Digit.get 0 ∧ blockOf (0 : Fin 81) = blockOf (9 : Fin 81) := by
  obtain ⟨s, hs⟩ := C41_constructors.1 noDigitLeft (by decide +kernel)
  obtain ⟨s', r, h1, h2⟩ := (C42_digits (.sudoku (by decide +kernel) hs) (Nat.le_refl _)).1 9
  have h : claims (start noDigitLeft []) (fun y => match y.2.1.cellState 1000 9 with
      | .ok (_, .candidates cands) => decide (0 ∈ elems cands)
      | _ => false) = true := by decide +kernel
  obtain ⟨⟨b, s1, g1⟩, h3, h4⟩ := claims_spec h
  unfold start at h3
  rw [hs] at h3
  cases h3
  dsimp only at h4
  rw [h1] at h4
  cases r with
  | digit d => cases h4
  | candidates cands => exact ⟨s, hs, s', cands, h1, of_decide_eq_true h4, by decide +kernel, by decide⟩

/-! ## Naked singles first -/

/-- A sudoku solved by hidden and naked singles. -/
def stuck : Grid := #v[
  0,0,0,8,3,0,0,1,2, 0,2,3,6,0,0,7,5,8, 0,0,8,2,0,7,0,3,0,
  4,1,6,7,2,3,8,9,5, 8,9,2,5,0,0,3,7,4, 7,3,5,4,8,9,6,2,1,
  2,8,0,0,0,0,0,4,3, 0,0,1,3,0,2,5,8,0, 3,5,0,0,0,8,2,6,0]

private theorem orders {g : Grid} (hg : WellFormed g) {a b : List Strategy}
    (h : claims (start g []) (fun y => claims (result a y.2.1) (fun r =>
      claims (result b y.2.1) (fun r' => !r.1 && r'.1))) = true) : ∃ s r r', Solver.fromSudoku g = .ok s ∧
        s.solve 1000 a = .ok (.error r) ∧ s.solve 1000 b = .ok (.ok r') := by
  obtain ⟨s', hs⟩ := C41_constructors.1 g hg
  obtain ⟨⟨l, s, g'⟩, h1, h2⟩ := claims_spec h
  obtain ⟨⟨ok, r⟩, h3, h4⟩ := claims_spec h2
  obtain ⟨⟨ok', r'⟩, h5, h6⟩ := claims_spec h4
  simp only [Bool.and_eq_true, Bool.not_eq_true'] at h6
  obtain ⟨rfl, rfl⟩ := h6
  unfold start at h1
  rw [hs] at h1
  cases h1
  exact ⟨s', r, r', hs, result_err h3, result_ok h5⟩

private theorem stuck_check : claims (start stuck []) (fun y => claims (result [.nakedSingles, .hiddenSingles] y.2.1)
    (fun r => claims (result [.hiddenSingles, .nakedSingles] y.2.1) (fun r' => !r.1 && r'.1))) = true := by
  decide +kernel

/-- **C50** is false when `NakedSingles` is the first strategy: the order of the strategies decides whether the sudoku is
solved. -/
theorem C50_naked_singles_first_false : ∃ s r r', Solver.fromSudoku stuck = .ok s ∧
    s.solve 1000 [.nakedSingles, .hiddenSingles] = .ok (.error r) ∧
    s.solve 1000 [.hiddenSingles, .nakedSingles] = .ok (.ok r') := by
  have hg : WellFormed stuck := by decide +kernel
  exact orders hg stuck_check

end Verif.Props
