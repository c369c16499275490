import Verif.Proofs.FirstPass
import Verif.Proofs.ExclTotal
import Verif.Props.StrategyFalse

/-!
# C88: the first strategy of the list finds all its patterns in one pass
-/
namespace Verif.Props

open Verif Verif.Strat

variable {looked : Bool} {s : Solver} {g : Grid} {X : Fin 81 → Digit → Prop} {fuel : Nat}

/-- **C88**: whatever a pattern of the first strategy excludes in the candidates at the start is excluded by the recorded
deductions.  This includes a list of one strategy that excludes candidates, which runs only once. -/
theorem C88_first_pass (h : Reaches looked s g X) (hf : 1000 ≤ fuel) (first : Strategy) (rest : List Strategy)
    (r : Grid × Deductions) (hr : Returned fuel (first :: rest) s r) (t : Grid) (ht : SolutionOf g X t)
    (x : Deduction (List Candidate)) (hm : Pattern.Matches (Possible g X) first x) (hx : Searched (Possible g X) x)
    (e : Candidate) (he : e ∈ Pattern.removed x) :
    ∃ i y, r.2.get i = .ok (some y) ∧ e ∈ Pattern.removed y := by
  obtain ⟨gh, hs⟩ := h.inv.2 (Or.inr (Consistent.of_solution ht))
  exact solve_first hf h.inv.1 hs hr (solve_few h hf ht hr) ht hm hx he

/-! ## A case that meets the hypotheses -/

set_option maxRecDepth 100000

private theorem locked_check : claims (start Ex.puzzle []) (fun y =>
    claims (result [.lockedCandidates] y.2.1) (fun r => !r.1 && decide (r.2.2.len = 12))) = true := by decide +kernel

private theorem locked_pattern : Pattern.Locked (Possible Ex.puzzle (fun _ _ => False)) 7
    (Pattern.miniBlock 50) (Pattern.miniLine 50) [⟨7, 7⟩, ⟨16, 7⟩] := by
  unfold Pattern.Locked Pattern.Lists Possible SameHouse
  beta_reduce
  refine ⟨?_, ?_, by simp, ?_⟩
  · decide +kernel
  · decide +kernel
  · simp only [List.mem_cons, List.not_mem_nil, or_false, Candidate.mk.injEq]
    decide +kernel

/-- C88: the example puzzle with `LockedCandidates` alone; one of the patterns at the start is a pointing pair of the digit
8 in a block. -/
example : IsSolution Ex.puzzle Ex.solved ∧ ∃ s r, Reaches false s Ex.puzzle (fun _ _ => False) ∧
    Returned 1000 [.lockedCandidates] s r ∧ r.2.len = 12 ∧
    Pattern.Matches (Possible Ex.puzzle (fun _ _ => False)) .lockedCandidates (.lockedCandidates 7 50 true [⟨7, 7⟩, ⟨16, 7⟩]) ∧
    Searched (Possible Ex.puzzle (fun _ _ => False)) (.lockedCandidates 7 50 true [⟨7, 7⟩, ⟨16, 7⟩]) := by
  have hg : WellFormed Ex.puzzle := by decide +kernel
  obtain ⟨s, hs⟩ := C41_constructors.1 Ex.puzzle hg
  obtain ⟨y, h1, h2⟩ := claims_spec locked_check
  obtain ⟨⟨ok, r⟩, h3, h4⟩ := claims_spec h2
  unfold start at h1
  rw [hs] at h1
  cases h1
  simp only [Bool.and_eq_true, Bool.not_eq_true', decide_eq_true_eq] at h4
  obtain ⟨rfl, h6⟩ := h4
  exact ⟨by decide +kernel, s, r, .sudoku hg hs, Or.inr (result_err h3), h6, locked_pattern, trivial⟩

end Verif.Props
