import Verif.Proofs.Shown
import Verif.Props.StrategyComplete
import Verif.Props.StrategyNews
import Verif.Props.Few

/-!
# Properties of the strategy solver: the pattern of a deduction is there when it is made
-/
namespace Verif.Props

open Verif Verif.Strat

variable {looked : Bool} {s : Solver} {g : Grid} {X : Fin 81 → Digit → Prop} {fuel : Nat}

/-- The candidates left include no other ones than the digits entered and the candidates excluded so far allow. -/
private theorem left_after {ds : Deductions} {i : Nat} {E R : List Candidate}
    (hE : ∀ e ∈ E, g[e.cell] = e.digit.get ∨ ∃ j < i, ∃ d', ds.get j = .ok (some d') ∧ Pattern.entry d' = some e)
    (hR : ∀ e ∈ R, X e.cell e.digit ∨ ∃ j < i, ∃ d', ds.get j = .ok (some d') ∧ e ∈ Pattern.removed d')
    {c : Fin 81} {d : Digit} (h : LeftBefore g X ds i c d) : Pattern.after E R c d := by
  obtain ⟨h1, h2, h3, h4⟩ := h
  refine ⟨fun hr => ?_, fun e he => ?_⟩
  · rcases hR _ hr with k | ⟨j, hj, d', k1, k2⟩
    · exact h2 k
    · exact (h4 j hj d' k1).1 k2
  · rcases hE e he with k | ⟨j, hj, d', k1, k2⟩
    · refine ⟨?_, fun hd => h3 e.cell hd.1 (by rw [k, hd.2])⟩
      rintro rfl
      exact Digit.get_ne_zero e.digit (k.symm.trans h1)
    · have := (h4 j hj d' k1).2 e k2
      exact ⟨this.1, fun hd => this.2 ⟨hd.2, hd.1⟩⟩

/-- A digit that is entered is left before. -/
private theorem entry_left (h : Reaches looked s g X) (hf : 1000 ≤ fuel) (sts : List Strategy) (r : Grid × Deductions)
    (hr : Returned fuel sts s r) (t : Grid) (ht : SolutionOf g X t) (i : Nat) (x : Deduction (List Candidate)) (e : Candidate)
    (hx : r.2.get i = .ok (some x)) (he : Pattern.entry x = some e) : LeftBefore g X r.2 i e.cell e.digit := by
  obtain ⟨k1, k2⟩ := C51_entries_once h hf sts r hr i x e hx he
  have sound := (C39_sound h hf sts r hr t ht).2
  have here : t[e.cell] = e.digit.get := (sound i x hx).1 e he
  have uniq : ∀ c' : Fin 81, SameHouse c' e.cell → t[c'] = e.digit.get → c' = e.cell := by
    intro c' h1 h2
    by_contra hne
    exact ht.1.1.2 c' e.cell hne h1 (h2.trans here.symm)
  refine ⟨k1, fun hX => ht.2 _ _ hX here, fun c' h1 h2 => ?_, fun j hj y hy => ⟨fun hm => (sound j y hy).2 _ hm here, ?_⟩⟩
  · have hc : c' = e.cell := uniq c' h1 (by
      rw [ht.1.2 c' (by rw [h2]; exact Digit.get_ne_zero _), h2])
    rw [hc, k1] at h2
    exact Digit.get_ne_zero _ h2.symm
  · intro e' he'
    have hne : e'.cell ≠ e.cell := fun hc => absurd (k2 j y e' hy he' hc) (by omega)
    refine ⟨hne, fun hd => hne (uniq e'.cell hd.2 ?_)⟩
    rw [(sound j y hy).1 e' he', hd.1]

/-- **C72**: the pattern of a deduction is seen on the candidates that are left when the deduction is made.  If the first
strategy excludes candidates, the deductions it makes in one search are all seen on the candidates left before the search:
then the pattern of such a deduction was seen at an earlier moment, since when only this strategy made deductions. -/
theorem C72_seen (h : Reaches looked s g X) (hf : 1000 ≤ fuel) (first : Strategy) (rest : List Strategy)
    (r : Grid × Deductions) (hr : Returned fuel (first :: rest) s r) (t : Grid) (ht : SolutionOf g X t)
    (i : Nat) (x : Deduction (List Candidate)) (hx : r.2.get i = .ok (some x)) :
    ∃ st, x.strategy = .ok st ∧ ∃ k ≤ i, Pattern.Matches (LeftBefore g X r.2 k) st x ∧
      (st ≠ first ∨ st = .nakedSingles ∨ st = .hiddenSingles → k = i) ∧
      ∀ j, k ≤ j → j ≤ i → ∃ y, r.2.get j = .ok (some y) ∧ y.strategy = .ok st := by
  obtain ⟨st, -, hst, E, R, hE, hR, hm⟩ := C47_explained h hf _ r hr t ht i x hx
  refine ⟨st, hst, ?_⟩
  have left := fun c d => left_after hE hR (c := c) (d := d)
  have only : ∀ j, i ≤ j → j ≤ i → ∃ y, r.2.get j = .ok (some y) ∧ y.strategy = .ok st := by
    intro j h1 h2
    cases Nat.le_antisymm h1 h2
    exact ⟨x, hx, hst⟩
  by_cases hn : st = .nakedSingles
  · subst hn
    refine ⟨i, le_rfl, ?_, fun _ => rfl, only⟩
    cases x <;> try exact hm.elim
    rename_i e
    have he := entry_left h hf _ r hr t ht i _ e hx rfl
    exact fun d => ⟨fun hd => (hm d).mp (left _ _ hd), fun hd => by rw [hd]; exact he⟩
  by_cases hh : st = .hiddenSingles
  · subst hh
    refine ⟨i, le_rfl, ?_, fun _ => rfl, only⟩
    cases x <;> try exact hm.elim
    rename_i e hs
    have he := entry_left h hf _ r hr t ht i _ e hx rfl
    exact ⟨hm.1, fun c hc => ⟨fun hd => (hm.2 c hc).mp (left _ _ hd), fun hd => by rw [hd]; exact he⟩⟩
  obtain ⟨gh, hs⟩ := h.inv.2 (Or.inr (Consistent.of_solution ht))
  obtain ⟨k, k1, k2, k3, k4⟩ := solve_seen hf h.inv.1 hs hr ht hx st hst hn hh
  refine ⟨k, k1, k2, ?_, k4⟩
  rintro (h1 | h1 | h1)
  · exact k3 h1
  · exact absurd h1 hn
  · exact absurd h1 hh

/-- **C72** when the first strategy is `NakedSingles` or `HiddenSingles`, or for a deduction of another strategy: the pattern
is seen at the moment of the deduction. -/
theorem C72_now (h : Reaches looked s g X) (hf : 1000 ≤ fuel) (first : Strategy) (rest : List Strategy)
    (r : Grid × Deductions) (hr : Returned fuel (first :: rest) s r) (t : Grid) (ht : SolutionOf g X t)
    (i : Nat) (x : Deduction (List Candidate)) (hx : r.2.get i = .ok (some x)) (st : Strategy) (hst : x.strategy = .ok st)
    (hne : st ≠ first ∨ first = .nakedSingles ∨ first = .hiddenSingles) : Pattern.Matches (LeftBefore g X r.2 i) st x := by
  obtain ⟨st', h1, k, -, h2, h3, -⟩ := C72_seen h hf first rest r hr t ht i x hx
  rw [hst] at h1
  cases h1
  rw [h3 ?_] at h2
  · exact h2
  · by_cases hs : st = first
    · rw [hs]
      rw [hs] at hne
      exact hne
    · exact Or.inl hs

/-- What a pattern excludes are candidates. -/
private theorem removed_cand {cand : Fin 81 → Digit → Prop} {st : Strategy} {x : Deduction (List Candidate)}
    (hm : Pattern.Matches cand st x) {e : Candidate} (he : e ∈ Pattern.removed x) : cand e.cell e.digit := by
  have lists : ∀ {l : List Candidate} {P : Fin 81 → Digit → Prop}, Pattern.Lists l cand P → e ∈ l → cand e.cell e.digit :=
    fun h h1 => ((h.2 e.cell e.digit).mp h1).2
  cases x with
  | nakedSingles => cases he
  | hiddenSingles => cases he
  | lockedCandidates digit m p l =>
    cases st <;> try exact hm.elim
    cases p
    · have hm : Pattern.Locked cand digit (Pattern.miniLine m) (Pattern.miniBlock m) l := hm
      exact lists hm.2.2 he
    · have hm : Pattern.Locked cand digit (Pattern.miniBlock m) (Pattern.miniLine m) l := hm
      exact lists hm.2.2 he
  | subsets => cases st <;> first | exact hm.elim | exact lists hm.2.2.2.2.2 he
  | basicFish =>
    cases st <;> try exact hm.elim
    all_goals
      obtain ⟨-, -, -, dir, -, -, -, h1⟩ := hm
      exact lists h1 he
  | fish => cases st <;> exact hm.elim
  | wing =>
    cases st <;> try exact hm.elim
    all_goals
      obtain ⟨p1, p2, a, b, c, -, -, -, -, -, -, -, -, -, -, -, h1⟩ := hm
      exact lists h1 he
  | avoidableRectangle => cases st <;> exact hm.elim

/-- **C72**: each candidate that a deduction excludes is left when the deduction is made, in the cases of `C72_now`. -/
theorem C72_removed_left (h : Reaches looked s g X) (hf : 1000 ≤ fuel) (first : Strategy) (rest : List Strategy)
    (r : Grid × Deductions) (hr : Returned fuel (first :: rest) s r) (t : Grid) (ht : SolutionOf g X t)
    (i : Nat) (x : Deduction (List Candidate)) (hx : r.2.get i = .ok (some x)) (st : Strategy) (hst : x.strategy = .ok st)
    (hne : st ≠ first ∨ first = .nakedSingles ∨ first = .hiddenSingles) :
    ∀ e ∈ Pattern.removed x, LeftBefore g X r.2 i e.cell e.digit :=
  fun _ he => removed_cand (C72_now h hf first rest r hr t ht i x hx st hst hne) he

/-! ## Cases that meet the hypotheses, and one where the pattern is not seen at the moment of the deduction -/

set_option maxRecDepth 100000

private theorem shown_check : claims (start ambiguous []) (fun y =>
    claims (result [.hiddenSingles, .nakedPairs] y.2.1) (fun r =>
      match r.2.2.get 10 with
      | .ok (some x) => match x.strategy with
        | .ok .nakedPairs => true
        | _ => false
      | _ => false)) = true := by decide +kernel

/-- C72: a naked pair is found after ten hidden singles. -/
example : SolutionOf ambiguous (fun _ _ => False) Ex.solved ∧ ∃ s r x, Reaches false s ambiguous (fun _ _ => False) ∧
    Returned 1000 [.hiddenSingles, .nakedPairs] s r ∧ r.2.get 10 = .ok (some x) ∧ x.strategy = .ok .nakedPairs := by
  have hg : WellFormed ambiguous := by decide +kernel
  obtain ⟨s, hs⟩ := C41_constructors.1 ambiguous hg
  obtain ⟨y, h1, h2⟩ := claims_spec shown_check
  obtain ⟨⟨ok, r⟩, h3, h4⟩ := claims_spec h2
  unfold start at h1
  rw [hs] at h1
  cases h1
  dsimp only at h4
  split at h4
  · rename_i x hx
    split at h4
    · rename_i hst
      refine ⟨⟨by decide +kernel, fun _ _ h => h.elim⟩, s, r, x, .sudoku hg hs, ?_, hx, hst⟩
      cases ok with
      | true => exact Or.inl (result_ok h3)
      | false => exact Or.inr (result_err h3)
    · cases h4
  · cases h4

/-- C72: a pattern that the first strategy finds in the same search as another one may not be left any more when its
deduction is listed. -/
theorem C72_same_search_false : IsSolution stuck stuckSolution ∧ ∃ s r, Reaches false s stuck (fun _ _ => False) ∧
    Returned 1000 [.lockedCandidates] s r ∧ ∃ y, r.2.get 2 = .ok (some y) ∧
      ∀ st, ¬ Pattern.Matches (LeftBefore stuck (fun _ _ => False) r.2 2) st y := by
  obtain ⟨s, r, h1, h2, x, y, hx, hy, hx', hy'⟩ := C52_repeated_false
  refine ⟨by decide +kernel, s, r, h1, h2, y, hy, fun st hm => ?_⟩
  exact ((removed_cand hm hy').2.2.2 0 (by decide) x hx).1 hx'

end Verif.Props
