import Verif.Props.Strategy
import Verif.Spec.Play

/-!
# Properties of the strategy solver: cases that meet the hypotheses
-/
namespace Verif.Props

open Verif Verif.Strat

set_option maxRecDepth 100000

private theorem gives {g : Grid} (hg : WellFormed g) {calls : List Call} {sts : List Strategy}
    {p : (Bool × Solver × Grid) × Bool × Grid × Deductions → Bool}
    (h : claims (start g calls) (fun y => claims (result sts y.2.1) (fun r => p (y, r))) = true) :
    ∃ b s g' r, Reaches b s g' (fun _ _ => False) ∧ Returned 1000 sts s r ∧
      ∃ ok, (ok = true → s.solve 1000 sts = .ok (.ok r)) ∧ (ok = false → s.solve 1000 sts = .ok (.error r)) ∧
        p ((b, s, g'), ok, r) = true := by
  obtain ⟨⟨b, s, g'⟩, h1, h2⟩ := claims_spec h
  obtain ⟨⟨ok, r⟩, h3, h4⟩ := claims_spec h2
  refine ⟨b, s, g', r, start_reaches hg h1, ?_, ok, ?_, ?_, h4⟩
  · cases ok with
    | true => exact Or.inl (result_ok h3)
    | false => exact Or.inr (result_err h3)
  · rintro rfl; exact result_ok h3
  · rintro rfl; exact result_err h3

/-! ## Cases that meet the hypotheses -/

/-- A sudoku on which many strategies find something; `Ex.solved` is a solution. -/
def mixed : Grid := #v[
  4,0,0,9,0,0,0,5,0, 9,6,7,3,0,0,0,0,1, 0,5,1,0,0,0,4,9,3,
  0,0,0,1,3,2,9,0,6, 0,0,0,0,0,0,0,3,0, 1,0,6,0,9,0,0,0,0,
  3,0,0,0,8,9,5,1,0, 8,0,0,0,5,0,7,6,0, 6,0,5,0,0,0,0,0,2]

/-- The grid state with the digits of a grid and all candidates in the other cells. -/
def digitState (g : Grid) : Vector CellState 81 := g.map (fun v =>
  if h : 1 ≤ v.toNat ∧ v.toNat ≤ 9 then .digit ⟨v.toNat - 1, by omega⟩ else .candidates 0b111111111#16)

/-- Is there a deduction satisfying `p`? -/
def someDeduction (p : Deduction (List Candidate) → Bool) (ds : Deductions) : Bool :=
  ds.iter.any (fun d => match d with
    | .ok d => p d
    | _ => false)

/-- C39, C40, C46–C49: a fresh solver that finds the solution with singles. -/
example : IsSolution Ex.puzzle Ex.solved ∧ ∃ b s g' r, Reaches b s g' (fun _ _ => False) ∧
    Returned 1000 [.nakedSingles, .hiddenSingles] s r ∧ g' = Ex.puzzle ∧ r.1 = Ex.solved ∧ 10 ≤ r.2.len := by
  refine ⟨by decide +kernel, ?_⟩
  obtain ⟨b, s, g', r, h1, h2, _, -, -, h3⟩ := gives (g := Ex.puzzle) (calls := [])
    (sts := [.nakedSingles, .hiddenSingles])
    (p := fun x => decide (x.1.2.2 = Ex.puzzle) && decide (x.2.2.1 = Ex.solved) && decide (10 ≤ x.2.2.2.len))
    (by decide +kernel) (by decide +kernel)
  simp only [Bool.and_eq_true, decide_eq_true_eq] at h3
  exact ⟨b, s, g', r, h1, h2, h3.1.1, h3.1.2, h3.2⟩

/-- C39, C42, C44, C45, C49: a solver after some calls; one digit was inserted, another one refused. -/
example : IsSolution (Ex.puzzle.set 0 4) Ex.solved ∧ ∃ b s g' r, Reaches b s g' (fun _ _ => False) ∧
    Returned 1000 [.hiddenSingles] s r ∧ b = true ∧ g' = Ex.puzzle.set 0 4 ∧ r.1[(1 : Fin 81)] = 8 := by
  refine ⟨by decide +kernel, ?_⟩
  obtain ⟨b, s, g', r, h1, h2, _, -, -, h3⟩ := gives (g := Ex.puzzle)
    (calls := [.look 40, .insert ⟨0, 3⟩, .insert ⟨2, 3⟩, .toSudoku, .look 0]) (sts := [.hiddenSingles])
    (p := fun x => x.1.1 && decide (x.1.2.2 = Ex.puzzle.set 0 4) && decide (x.2.2.1[(1 : Fin 81)] = 8))
    (by decide +kernel) (by decide +kernel)
  simp only [Bool.and_eq_true, decide_eq_true_eq] at h3
  exact ⟨b, s, g', r, h1, h2, h3.1.1, h3.1.2, h3.2⟩

/-- C39, C47: deductions that exclude candidates. -/
def Finds (sts : List Strategy) : Prop := IsSolution mixed Ex.solved ∧ ∃ s r, Reaches false s mixed (fun _ _ => False) ∧
  Returned 1000 sts s r ∧ someDeduction (fun d => !(Pattern.removed d).isEmpty) r.2 = true

private theorem finds {sts : List Strategy} (h : claims (start mixed []) (fun y => claims (result sts y.2.1)
    (fun r => someDeduction (fun d => !(Pattern.removed d).isEmpty) r.2.2)) = true) : Finds sts := by
  have hg : WellFormed mixed := by decide +kernel
  obtain ⟨s, hs⟩ := C41_constructors.1 mixed hg
  obtain ⟨y, h1, h2⟩ := claims_spec h
  obtain ⟨⟨ok, r⟩, h3, h4⟩ := claims_spec h2
  unfold start at h1
  rw [hs] at h1
  cases h1
  refine ⟨by decide +kernel, s, r, .sudoku hg hs, ?_, h4⟩
  cases ok with
  | true => exact Or.inl (result_ok h3)
  | false => exact Or.inr (result_err h3)

example : Finds [.lockedCandidates] := finds (by decide +kernel)
example : Finds [.nakedPairs] := finds (by decide +kernel)
example : Finds [.hiddenPairs] := finds (by decide +kernel)
example : Finds [.xWing] := finds (by decide +kernel)
example : Finds [.swordfish] := finds (by decide +kernel)
example : Finds [.xyWing] := finds (by decide +kernel)
example : Finds [.xyzWing] := finds (by decide +kernel)

/-- C42, C45, C49: a grid state that excludes a digit of an empty cell. -/
example : ∃ b s g' r, Reaches b s g' (excludedBy ((digitState Ex.puzzle).set 0 (.candidates 0b000011000#16))) ∧
    Returned 1000 [.hiddenSingles, .nakedSingles] s r ∧ g' = Ex.puzzle ∧ r.1 = Ex.solved := by
  have h : claims (startState ((digitState Ex.puzzle).set 0 (.candidates 0b000011000#16)) []) (fun y =>
      claims (result [.hiddenSingles, .nakedSingles] y.2.1)
        (fun r => decide (y.2.2 = Ex.puzzle) && (r.1 && decide (r.2.1 = Ex.solved)))) = true := by
    decide +kernel
  obtain ⟨⟨b, s, g'⟩, h1, h2⟩ := claims_spec h
  obtain ⟨⟨ok, r⟩, h3, h4⟩ := claims_spec h2
  simp only [Bool.and_eq_true, decide_eq_true_eq] at h4
  obtain ⟨h5, rfl, h6⟩ := h4
  exact ⟨b, s, g', r, startState_reaches h1, Or.inl (result_ok h3), h5, h6⟩

end Verif.Props
