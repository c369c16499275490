import Verif.Proofs.Easier
import Verif.Props.StrategyComplete

/-!
# Properties of the strategy solver: a strategy is used when the ones before it find nothing
-/
namespace Verif.Props

open Verif Verif.Strat

variable {looked : Bool} {s : Solver} {g : Grid} {X : Fin 81 → Digit → Prop} {fuel : Nat}

/-- Strategies that search without success, among them the ones that find the other patterns, leave no pattern. -/
private theorem no_pattern {cand : Fin 81 → Digit → Prop} {E : Strategy → Prop} (hE : ∀ st, E st → Idle st cand)
    {st : Strategy} (hst : E st) (hh : ∀ st' ∈ helpers st, E st') (x : Deduction (List Candidate)) :
    ¬ Pattern.Matches cand st x := by
  intro hm
  have none : ∀ st', E st' → (∀ x, Pattern.Matches cand st' x → Searched cand x) →
      ∀ x, ¬ Pattern.Matches cand st' x := fun st' h1 h2 x h3 => hE st' h1 x h3 (h2 x h3)
  have hsub : ∀ x, Pattern.Matches cand .nakedTriples x → Searched cand x := by
    intro x hx
    cases x <;> first | exact hx.elim | trivial
  have hloc : ∀ x, Pattern.Matches cand .lockedCandidates x → Searched cand x := by
    intro x hx
    cases x <;> first | exact hx.elim | trivial
  have hhid : ∀ x, Pattern.Matches cand .hiddenSingles x → Searched cand x := by
    intro x hx
    cases x <;> first | exact hx.elim | trivial
  refine none st hst ?_ x hm
  intro x hx
  cases x with
  | basicFish digit lines positions l =>
    have hhs : E .hiddenSingles → Searched cand (.basicFish digit lines positions l) := by
      intro h1
      cases st <;> first | exact hx.elim | exact fish_searched (none _ h1 hhid) hx
    cases st <;> first | exact hx.elim | exact hhs (hh _ (by simp [helpers]))
  | wing hinge hd pincers l =>
    cases st with
    | xyWing => exact wing_searched (none _ (hh _ (by simp [helpers])) hsub) (fun _ => none _ (hh _ (by simp [helpers])) hloc) hx
    | xyzWing => exact wing_searched (none _ (hh _ (by simp [helpers])) hsub) (fun h => absurd h (by decide)) hx
    | _ => exact hx.elim
  | _ => trivial

/-- **C71**: a deduction of another strategy than the first one is made only when the strategies before it in the list
find nothing: at that moment no pattern is left that one of these strategies searches for.  If the strategies that find
the patterns it does not search for are also before it, no pattern is left at all. -/
theorem C71_easier_first (h : Reaches looked s g X) (hf : 1000 ≤ fuel) (first : Strategy) (rest : List Strategy)
    (r : Grid × Deductions) (hr : Returned fuel (first :: rest) s r) (t : Grid) (ht : SolutionOf g X t)
    (i : Nat) (x : Deduction (List Candidate)) (hx : r.2.get i = .ok (some x))
    (st : Strategy) (hst : x.strategy = .ok st) (hne : st ≠ first) :
    ∃ pre post, rest = pre ++ st :: post ∧ ∀ st', Tried first pre st' →
      (∀ y, Pattern.Matches (LeftBefore g X r.2 i) st' y → ¬ Searched (LeftBefore g X r.2 i) y) ∧
      ((∀ st2 ∈ helpers st', Tried first pre st2) → ∀ y, ¬ Pattern.Matches (LeftBefore g X r.2 i) st' y) := by
  obtain ⟨gh, hs⟩ := h.inv.2 (Or.inr (Consistent.of_solution ht))
  obtain ⟨pre, post, h1, h2⟩ := (solve_easy hf h.inv.1 hs hr (solve_few h hf ht hr) ht hx st hst).resolve_left hne
  exact ⟨pre, post, h1, fun st' h3 => ⟨h2 st' h3, fun hh y => no_pattern h2 h3 hh y⟩⟩

/-! ## Cases that meet the hypotheses -/

set_option maxRecDepth 100000

private theorem pairs_check : claims (start ambiguous []) (fun y =>
    claims (result [.hiddenSingles, .xWing, .nakedPairs] y.2.1) (fun r =>
      match r.2.2.get 10 with
      | .ok (some x) => match x.strategy with
        | .ok .nakedPairs => true
        | _ => false
      | _ => false)) = true := by decide +kernel

/-- C71: a naked pair is used after hidden singles; `HiddenSingles` and `XWing` come before. -/
example : IsSolution ambiguous Ex.solved ∧ ∃ s r x, Reaches false s ambiguous (fun _ _ => False) ∧
    Returned 1000 [.hiddenSingles, .xWing, .nakedPairs] s r ∧ r.2.get 10 = .ok (some x) ∧ x.strategy = .ok .nakedPairs ∧
    ∀ st ∈ [Strategy.hiddenSingles, .xWing], Tried .hiddenSingles [.xWing] st ∧
      ∀ st' ∈ helpers st, Tried .hiddenSingles [.xWing] st' := by
  have hg : WellFormed ambiguous := by decide +kernel
  obtain ⟨s, hs⟩ := C41_constructors.1 ambiguous hg
  obtain ⟨y, h1, h2⟩ := claims_spec pairs_check
  obtain ⟨⟨ok, r⟩, h3, h4⟩ := claims_spec h2
  unfold start at h1
  rw [hs] at h1
  cases h1
  dsimp only at h4
  split at h4
  · rename_i x hx
    split at h4
    · rename_i hst
      refine ⟨by decide +kernel, s, r, x, .sudoku hg hs, ?_, hx, hst, ?_⟩
      · cases ok with
        | true => exact Or.inl (result_ok h3)
        | false => exact Or.inr (result_err h3)
      · intro st hm
        simp only [List.mem_cons, List.not_mem_nil, or_false] at hm
        rcases hm with rfl | rfl <;> simp [Tried, helpers]
    · cases h4
  · cases h4

end Verif.Props
