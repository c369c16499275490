import Verif.Proofs.StratImplied
import Verif.Proofs.StratFresh
import Verif.Proofs.ExclTotal
import Verif.Props.StrategyFalse

/-!
# Properties of the strategy solver: when it gives up, there is nothing left to find
-/
namespace Verif.Props

open Verif Verif.Strat

variable {looked : Bool} {s : Solver} {g : Grid} {X : Fin 81 → Digit → Prop} {fuel : Nat}

/-- **C50**: when `solve` gives up on a sudoku that has a solution, the strategies find nothing in the candidates that are
left: no pattern that the strategy searches for is left.

Missing: `NakedSingles` as the first strategy (where the claim is false, `C50_naked_singles_first_false`), a list of one
strategy that excludes candidates (it runs once), sudokus without a solution, and the patterns that are not `Searched`. -/
theorem C50_nothing_found_partial (h : Reaches looked s g X) (hf : 1000 ≤ fuel) (first : Strategy) (rest : List Strategy)
    (r : Grid × Deductions) (hr : s.solve fuel (first :: rest) = .ok (.error r))
    (t : Grid) (ht : SolutionOf g X t) (st : Strategy) (hst : Exhausted first rest st)
    (x : Deduction (List Candidate)) (hm : Pattern.Matches (Left r X) st x) : ¬ Searched (Left r X) x := by
  obtain ⟨gh, hs⟩ := h.inv.2 (Or.inr (Consistent.of_solution ht))
  exact solve_idle hf h.inv.1 hs hr (solve_few h hf ht (Or.inr hr)) ht st hst x hm

/-- **C50**: when `solve` gives up on a sudoku that has a solution, no pattern of the strategies is left.

Missing: as in `C50_nothing_found_partial`; instead of the patterns that are not searched for, the strategies that find
these are in the list. -/
theorem C50_nothing_left_partial (h : Reaches looked s g X) (hf : 1000 ≤ fuel) (first : Strategy) (rest : List Strategy)
    (r : Grid × Deductions) (hr : s.solve fuel (first :: rest) = .ok (.error r))
    (t : Grid) (ht : SolutionOf g X t) (st : Strategy) (hst : Exhausted first rest st)
    (hh : ∀ st' ∈ helpers st, Exhausted first rest st') (x : Deduction (List Candidate)) :
    ¬ Pattern.Matches (Left r X) st x := by
  intro hm
  have none : ∀ st', Exhausted first rest st' → (∀ x, Pattern.Matches (Left r X) st' x → Searched (Left r X) x) →
      ∀ x, ¬ Pattern.Matches (Left r X) st' x := fun st' h1 h2 x h3 =>
    C50_nothing_found_partial h hf first rest r hr t ht st' h1 x h3 (h2 x h3)
  have hsub : ∀ x, Pattern.Matches (Left r X) .nakedTriples x → Searched (Left r X) x := by
    intro x hx
    cases x <;> first | exact hx.elim | trivial
  have hloc : ∀ x, Pattern.Matches (Left r X) .lockedCandidates x → Searched (Left r X) x := by
    intro x hx
    cases x <;> first | exact hx.elim | trivial
  have hhid : ∀ x, Pattern.Matches (Left r X) .hiddenSingles x → Searched (Left r X) x := by
    intro x hx
    cases x <;> first | exact hx.elim | trivial
  refine none st hst ?_ x hm
  intro x hx
  cases x with
  | basicFish digit lines positions l =>
    have hhs : Exhausted first rest .hiddenSingles → Searched (Left r X) (.basicFish digit lines positions l) := by
      intro h1
      cases st <;> first | exact hx.elim | exact fish_searched (none _ h1 hhid) hx
    cases st <;> first | exact hx.elim | exact hhs (hh _ (by simp [helpers]))
  | wing hinge hd pincers l =>
    cases st with
    | xyWing => exact wing_searched (none _ (hh _ (by simp [helpers])) hsub) (fun _ => none _ (hh _ (by simp [helpers])) hloc) hx
    | xyzWing => exact wing_searched (none _ (hh _ (by simp [helpers])) hsub) (fun h => absurd h (by decide)) hx
    | _ => exact hx.elim
  | _ => trivial

/-! ## Cases that meet the hypotheses -/

set_option maxRecDepth 100000

/-- A sudoku with several solutions, one of them is `Ex.solved`. -/
def ambiguous : Grid := #v[
  0,8,0,9,0,0,0,5,0, 9,0,7,0,4,0,8,0,0, 0,5,0,8,0,6,0,9,0,
  5,0,8,0,3,0,9,0,6, 0,0,0,5,6,4,0,3,8, 0,3,6,7,9,8,0,4,5,
  3,7,0,6,8,9,5,0,4, 8,0,4,0,5,3,7,6,9, 6,9,5,4,0,7,3,8,0]

private theorem ambiguous_check : claims (start ambiguous []) (fun y =>
    claims (result [.hiddenSingles, .lockedCandidates, .nakedTriples, .xyWing] y.2.1) (fun r =>
      !r.1 && (decide (2 ≤ r.2.2.eliminated.length) && decide (10 ≤ r.2.2.len)))) = true := by decide +kernel

/-- C50: `solve` enters digits and excludes candidates, and gives up. -/
example : IsSolution ambiguous Ex.solved ∧ ∃ s r, Reaches false s ambiguous (fun _ _ => False) ∧
    s.solve 1000 [.hiddenSingles, .lockedCandidates, .nakedTriples, .xyWing] = .ok (.error r) ∧
    2 ≤ r.2.eliminated.length ∧ 10 ≤ r.2.len ∧
    ∀ st ∈ [Strategy.hiddenSingles, .lockedCandidates, .nakedTriples, .xyWing],
      Exhausted .hiddenSingles [.lockedCandidates, .nakedTriples, .xyWing] st ∧
      ∀ st' ∈ helpers st, Exhausted .hiddenSingles [.lockedCandidates, .nakedTriples, .xyWing] st' := by
  have hg : WellFormed ambiguous := by decide +kernel
  obtain ⟨s, hs⟩ := C41_constructors.1 ambiguous hg
  obtain ⟨y, h1, h2⟩ := claims_spec ambiguous_check
  obtain ⟨⟨ok, r⟩, h3, h4⟩ := claims_spec h2
  unfold start at h1
  rw [hs] at h1
  cases h1
  simp only [Bool.and_eq_true, Bool.not_eq_true', decide_eq_true_eq] at h4
  obtain ⟨rfl, h6, h7⟩ := h4
  refine ⟨by decide +kernel, s, r, .sudoku hg hs, result_err h3, h6, h7, ?_⟩
  intro st hst
  simp only [List.mem_cons, List.not_mem_nil, or_false] at hst
  rcases hst with rfl | rfl | rfl | rfl <;> simp [Exhausted, helpers]

end Verif.Props
