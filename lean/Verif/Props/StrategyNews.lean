import Verif.Props.StrategyComplete

/-!
# Properties of the strategy solver: every deduction is news
-/
namespace Verif.Props

open Verif Verif.Strat

variable {looked : Bool} {s : Solver} {g : Grid} {X : Fin 81 → Digit → Prop} {fuel : Nat}

/-- **C51**: a deduction enters a digit only in a cell that was empty before `solve`, and no two deductions enter a digit in
the same cell. -/
theorem C51_entries_once (h : Reaches looked s g X) (hf : 1000 ≤ fuel) (sts : List Strategy) (r : Grid × Deductions)
    (hr : Returned fuel sts s r) (i : Nat) (x : Deduction (List Candidate)) (e : Candidate)
    (hx : r.2.get i = .ok (some x)) (he : Pattern.entry x = some e) :
    g[e.cell] = 0 ∧ ∀ j y e', r.2.get j = .ok (some y) → Pattern.entry y = some e' → e'.cell = e.cell → j = i := by
  obtain ⟨s', h1, h2, -⟩ := solve_tried hr
  have hg : Grow false True (fun c => g[c] ≠ 0) s s' := trySolve_grow (fun h => by cases h) hf h.inv.1.w (fun _ => h.pre) h1
  exact ⟨hg.empty h.inv.1.none h2 hx he, fun j y e' hy he' hc => hg.entries h.inv.1.none h2 hy hx he' he hc⟩

/-- **C52**: when the first strategy is `NakedSingles` or `HiddenSingles`, each candidate is excluded by one deduction, once,
and only if it was not excluded before.

Missing: the other strategies in the first place, where the claim is false (`C52_repeated_false`). -/
theorem C52_exclusions_once_partial (h : Reaches looked s g X) (hf : 1000 ≤ fuel) (first : Strategy) (rest : List Strategy)
    (h1 : first = .nakedSingles ∨ first = .hiddenSingles) (r : Grid × Deductions) (hr : Returned fuel (first :: rest) s r)
    (i : Nat) (x : Deduction (List Candidate)) (hx : r.2.get i = .ok (some x)) :
    (Pattern.removed x).Nodup ∧ ∀ e ∈ Pattern.removed x, ¬ X e.cell e.digit ∧
      ∀ j y, r.2.get j = .ok (some y) → e ∈ Pattern.removed y → j = i := by
  obtain ⟨s', h2, h3, h4⟩ := solve_tried hr
  have hg : Grow true True (fun c => g[c] ≠ 0) s s' :=
    trySolve_grow (fun _ _ => by simpa using h1) hf h.inv.1.w (fun _ => h.pre) h2
  obtain ⟨k1, k2, k3⟩ := hg.exclusions h.inv.1.none h.nodup h3 h4 hx
  exact ⟨k1, fun e he => ⟨fun hX => k2 e he ((h.inv.1.elim e.cell e.digit).mpr hX), fun j y hy hey => (k3 j y e hy he hey).symm⟩⟩

/-! ## Cases that meet the hypotheses, and one where the claim is false -/

set_option maxRecDepth 100000

/-- A deduction excludes a candidate. -/
def excludes (ds : Deductions) (i : Nat) (e : Candidate) : Bool :=
  match ds.get i with
  | .ok (some x) => decide (e ∈ Pattern.removed x)
  | _ => false

/-- A deduction enters a digit. -/
def enters (ds : Deductions) (i : Nat) (e : Candidate) : Bool :=
  match ds.get i with
  | .ok (some x) => decide (Pattern.entry x = some e)
  | _ => false

theorem excludes_spec {ds : Deductions} {i : Nat} {e : Candidate} (h : excludes ds i e = true) :
    ∃ x, ds.get i = .ok (some x) ∧ e ∈ Pattern.removed x := by
  unfold excludes at h
  split at h
  · rename_i x hx
    exact ⟨x, hx, of_decide_eq_true h⟩
  · cases h

theorem enters_spec {ds : Deductions} {i : Nat} {e : Candidate} (h : enters ds i e = true) :
    ∃ x, ds.get i = .ok (some x) ∧ Pattern.entry x = some e := by
  unfold enters at h
  split at h
  · rename_i x hx
    exact ⟨x, hx, of_decide_eq_true h⟩
  · cases h

private theorem gives {g : Grid} (hg : WellFormed g) {sts : List Strategy} {p : Deductions → Bool}
    (h : claims (start g []) (fun y => claims (result sts y.2.1) (fun r => p r.2.2)) = true) :
    ∃ s r, Reaches false s g (fun _ _ => False) ∧ Returned 1000 sts s r ∧ p r.2 = true := by
  obtain ⟨s, hs⟩ := C41_constructors.1 g hg
  obtain ⟨y, h1, h2⟩ := claims_spec h
  obtain ⟨⟨ok, r⟩, h3, h4⟩ := claims_spec h2
  unfold start at h1
  rw [hs] at h1
  cases h1
  refine ⟨s, r, .sudoku hg hs, ?_, h4⟩
  cases ok with
  | true => exact Or.inl (result_ok h3)
  | false => exact Or.inr (result_err h3)

/-- C51, C52: deductions that exclude candidates and enter digits. -/
example : ∃ s r, Reaches false s stuck (fun _ _ => False) ∧ Returned 1000 [.nakedSingles, .lockedCandidates] s r ∧
    (∃ x, r.2.get 0 = .ok (some x) ∧ (⟨18, 5⟩ : Candidate) ∈ Pattern.removed x) ∧
    ∃ x, r.2.get 1 = .ok (some x) ∧ Pattern.entry x = some ⟨19, 3⟩ := by
  obtain ⟨s, r, h1, h2, h3⟩ := gives (g := stuck) (sts := [.nakedSingles, .lockedCandidates])
    (p := fun ds => excludes ds 0 ⟨18, 5⟩ && enters ds 1 ⟨19, 3⟩) (by decide +kernel) (by decide +kernel)
  rw [Bool.and_eq_true] at h3
  exact ⟨s, r, h1, h2, excludes_spec h3.1, enters_spec h3.2⟩

/-- **C52** is false of the exclusions when another strategy is the first: two deductions exclude the same candidate. -/
theorem C52_repeated_false : ∃ s r, Reaches false s stuck (fun _ _ => False) ∧ Returned 1000 [.lockedCandidates] s r ∧
    ∃ x y, r.2.get 0 = .ok (some x) ∧ r.2.get 2 = .ok (some y) ∧
      (⟨18, 5⟩ : Candidate) ∈ Pattern.removed x ∧ (⟨18, 5⟩ : Candidate) ∈ Pattern.removed y := by
  obtain ⟨s, r, h1, h2, h3⟩ := gives (g := stuck) (sts := [.lockedCandidates])
    (p := fun ds => excludes ds 0 ⟨18, 5⟩ && excludes ds 2 ⟨18, 5⟩) (by decide +kernel) (by decide +kernel)
  rw [Bool.and_eq_true] at h3
  obtain ⟨x, hx, hx'⟩ := excludes_spec h3.1
  obtain ⟨y, hy, hy'⟩ := excludes_spec h3.2
  exact ⟨s, r, h1, h2, x, y, hx, hy, hx', hy'⟩

end Verif.Props
