import Verif.Proofs.More
import Verif.Props.Shown
import Verif.Props.Order
import Verif.Props.Together

/-!
# Properties of the strategy solver: more strategies at the end of the list
-/
namespace Verif.Props

open Verif Verif.Strat

variable {looked : Bool} {s : Solver} {g : Grid} {X : Fin 81 → Digit → Prop} {fuel : Nat}

/-- **C73**: with more strategies at the end of the list, `solve` makes the same deductions first. -/
theorem C73_begins (h : Reaches looked s g X) (hc : looked = false ∨ Consistent g X) (hf : 1000 ≤ fuel) (sts more : List Strategy)
    (h0 : sts ≠ []) (r r' : Grid × Deductions) (hr : Returned fuel sts s r) (hr' : Returned fuel (sts ++ more) s r')
    (i : Nat) (x : Deduction (List Candidate)) (hx : r.2.get i = .ok (some x)) : r'.2.get i = .ok (some x) := by
  obtain ⟨gh, hs⟩ := h.inv.2 hc
  cases sts with
  | nil => exact absurd rfl h0
  | cons first rest => exact solve_more hf h.inv.1.w hs hr hr' hx

/-- **C73**: and it keeps each digit found. -/
theorem C73_digits (h : Reaches looked s g X) (hc : looked = false ∨ Consistent g X) (hf : 1000 ≤ fuel) (sts more : List Strategy)
    (h0 : sts ≠ []) (r r' : Grid × Deductions) (hr : Returned fuel sts s r) (hr' : Returned fuel (sts ++ more) s r')
    (c : Fin 81) (hd : r.1[c] ≠ 0) : r'.1[c] = r.1[c] := by
  obtain ⟨d, h1, -⟩ := (C48_accounted h hc hf sts r hr).1 c hd
  rw [h1]
  rw [C48_exact h hc hf _ r hr] at h1
  rw [C48_exact h hc hf _ r' hr']
  refine h1.imp_right ?_
  rintro ⟨i, x, hx, he⟩
  exact ⟨i, x, C73_begins h hc hf sts more h0 r r' hr hr' i x hx, he⟩

/-- An excluding deduction has candidates to exclude. -/
private theorem removed_ne {cand : Fin 81 → Digit → Prop} {st : Strategy} {x : Deduction (List Candidate)}
    (hm : Pattern.Matches cand st x) : (∃ e, Pattern.entry x = some e ∧ (st = .nakedSingles ∨ st = .hiddenSingles)) ∨
      ∃ c d, cand c d := by
  have lists : ∀ {l : List Candidate} {P : Fin 81 → Digit → Prop}, Pattern.Lists l cand P → ∃ c d, cand c d := by
    intro l P h
    obtain ⟨e, he⟩ := List.exists_mem_of_ne_nil l h.1
    exact ⟨e.cell, e.digit, ((h.2 e.cell e.digit).mp he).2⟩
  cases x with
  | nakedSingles e => cases st <;> first | exact hm.elim | exact Or.inl ⟨e, rfl, Or.inl rfl⟩
  | hiddenSingles e => cases st <;> first | exact hm.elim | exact Or.inl ⟨e, rfl, Or.inr rfl⟩
  | lockedCandidates digit m p l =>
    cases st <;> try exact hm.elim
    cases p
    · have hm : Pattern.Locked cand digit (Pattern.miniLine m) (Pattern.miniBlock m) l := hm
      exact Or.inr (lists hm.2.2)
    · have hm : Pattern.Locked cand digit (Pattern.miniBlock m) (Pattern.miniLine m) l := hm
      exact Or.inr (lists hm.2.2)
  | subsets => cases st <;> first | exact hm.elim | exact Or.inr (lists hm.2.2.2.2.2)
  | basicFish =>
    cases st <;> try exact hm.elim
    all_goals
      obtain ⟨-, -, -, dir, -, -, -, h1⟩ := hm
      exact Or.inr (lists h1)
  | fish => cases st <;> exact hm.elim
  | wing =>
    cases st <;> try exact hm.elim
    all_goals
      obtain ⟨p1, p2, a, b, c, -, -, -, -, -, -, -, -, -, -, -, h1⟩ := hm
      exact Or.inr (lists h1)
  | avoidableRectangle => cases st <;> exact hm.elim

/-- Only the single strategies enter digits. -/
private theorem entry_single {st : Strategy} {x : Deduction (List Candidate)} (hst : x.strategy = .ok st) {e : Candidate}
    (he : Pattern.entry x = some e) : st = .nakedSingles ∨ st = .hiddenSingles := by
  cases x with
  | nakedSingles => cases hst; exact Or.inl rfl
  | hiddenSingles => cases hst; exact Or.inr rfl
  | _ => cases he

/-- **C73**: a sudoku that is solved by some strategies is solved with more strategies at the end of the list by the same
deductions. -/
theorem C73_solved (h : Reaches looked s g X) (hf : 1000 ≤ fuel) (sts more : List Strategy) (r r' : Grid × Deductions)
    (hr : s.solve fuel sts = .ok (.ok r)) (hr' : Returned fuel (sts ++ more) s r') (t : Grid) (ht : SolutionOf g X t) :
    s.solve fuel (sts ++ more) = .ok (.ok r') ∧ r'.1 = r.1 ∧ r'.2.len = r.2.len ∧ ∀ i, r'.2.get i = r.2.get i := by
  have hc : looked = false ∨ Consistent g X := Or.inr (Consistent.of_solution ht)
  have hR : Returned fuel sts s r := Or.inl hr
  have hsol := C49_solved_partial h hc (fun c d hd hX => ht.2 c d hX (by
    rw [ht.1.2 c (by rw [hd]; exact Digit.get_ne_zero d), hd])) hf sts r hr
  have full : ∀ c : Fin 81, r.1[c] ≠ 0 := by
    intro c hz
    have := (hsol.1.1.1.1 c).1
    rw [hz] at this
    exact absurd this (by decide)
  by_cases h0 : sts = []
  · subst h0
    have hsolved : s.isSolved = true := by
      unfold Solver.solve Solver.trySolve at hr
      rw [Res.ok_bind] at hr
      dsimp only at hr
      split at hr
      · rename_i hs
        exact hs
      · cases hr
    have htry : s.trySolve fuel ([] ++ more) = .ok s := by
      cases more with
      | nil => rfl
      | cons first rest =>
        obtain ⟨n, rfl⟩ : ∃ n, fuel = n + 1 := ⟨fuel - 1, by omega⟩
        show solveLoop (n + 1) first rest (n + 1) s = .ok s
        unfold solveLoop
        rw [if_pos hsolved]
    have heq : s.solve fuel ([] ++ more) = .ok (.ok r) := by
      rw [← hr]
      unfold Solver.solve
      rw [htry]
      rfl
    rw [heq]
    unfold Returned at hr'
    rw [heq] at hr'
    rcases hr' with h1 | h1
    · cases h1
      exact ⟨rfl, rfl, rfl, fun _ => rfl⟩
    · cases h1
  have same : ∀ c : Fin 81, r'.1[c] = r.1[c] := fun c => C73_digits h hc hf sts more h0 r r' hR hr' c (full c)
  have ok : s.solve fuel (sts ++ more) = .ok (.ok r') := by
    rcases hr' with h1 | h1
    · exact h1
    · obtain ⟨first, rest, rfl⟩ : ∃ first rest, sts = first :: rest := by
        cases sts with
        | nil => exact absurd rfl h0
        | cons a b => exact ⟨a, b, rfl⟩
      obtain ⟨c, hz⟩ := C65_unfinished h hf first (rest ++ more) r' h1 t ht
      exact absurd (by rw [← same c, hz]) (full c)
  obtain ⟨len1, len2, -⟩ := C46_read_deductions h hc hf sts r hR
  obtain ⟨len1', len2', -⟩ := C46_read_deductions h hc hf (sts ++ more) r' hr'
  -- a deduction past the end of the shorter run
  have none : ∀ i, r.2.len ≤ i → ∀ x, r'.2.get i ≠ .ok (some x) := by
    intro i hi x hx
    obtain ⟨first, rest, rfl⟩ : ∃ first rest, sts = first :: rest := by
      cases sts with
      | nil => exact absurd rfl h0
      | cons a b => exact ⟨a, b, rfl⟩
    obtain ⟨st, hst, k, hk, hm, hki, hks⟩ := C72_seen h hf first (rest ++ more) r' hr' t ht i x hx
    have filled : ∀ c : Fin 81, g[c] ≠ 0 ∨ ∃ j y e, j < i ∧ r'.2.get j = .ok (some y) ∧ Pattern.entry y = some e ∧ e.cell = c := by
      intro c
      obtain ⟨d, -, h2 | ⟨j, y, hy, he⟩⟩ := (C48_accounted h hc hf _ r hR).1 c (full c)
      · exact Or.inl (by rw [h2]; exact Digit.get_ne_zero d)
      · refine Or.inr ⟨j, y, _, ?_, C73_begins h hc hf _ more h0 r r' hR hr' j y hy, he, rfl⟩
        by_contra hj
        rw [(len2 j (by omega)).1] at hy
        cases hy
    rcases removed_ne hm with ⟨e, he, -⟩ | ⟨c, d, hcd⟩
    · obtain ⟨k1, k2⟩ := C51_entries_once h hf _ r' hr' i x e hx he
      rcases filled e.cell with h1 | ⟨j, y, e', hj, hy, he', hcell⟩
      · exact h1 k1
      · exact absurd (k2 j y e' hy he' hcell) (by omega)
    · rcases filled c with h1 | ⟨j, y, e', hj, hy, he', hcell⟩
      · exact h1 hcd.1
      · by_cases hjk : j < k
        · exact ((hcd.2.2.2 j hjk y hy).2 e' he').1 hcell
        · obtain ⟨y', hy', hst'⟩ := hks j (by omega) (by omega)
          rw [hy] at hy'
          cases hy'
          have := hki (Or.inr (entry_single hst' he'))
          omega
  have len : r'.2.len = r.2.len := by
    refine Nat.le_antisymm ?_ ?_
    · by_contra hlt
      obtain ⟨d, hd, -⟩ := len1' r.2.len (by omega)
      exact none _ (Nat.le_refl _) d hd
    · by_contra hlt
      obtain ⟨d, hd, -⟩ := len1 r'.2.len (by omega)
      have := C73_begins h hc hf sts more h0 r r' hR hr' _ d hd
      rw [(len2' _ (Nat.le_refl _)).1] at this
      cases this
  refine ⟨ok, Vector.ext fun i hi => same ⟨i, hi⟩, len, fun i => ?_⟩
  by_cases hi : i < r.2.len
  · obtain ⟨d, hd, -⟩ := len1 i hi
    rw [hd, C73_begins h hc hf sts more h0 r r' hR hr' i d hd]
  · rw [(len2 i (by omega)).1, (len2' i (by omega)).1]

/-! ## Cases that meet the hypotheses -/

set_option maxRecDepth 100000

private theorem more_check : claims (start Ex.puzzle []) (fun y =>
    claims (result [.nakedSingles] y.2.1) (fun r => r.1) &&
    claims (result [.nakedSingles, .nakedPairs, .xyWing] y.2.1) (fun _ => true)) = true := by decide +kernel

/-- C73: a sudoku that is solved with `NakedSingles`. -/
example : IsSolution Ex.puzzle Ex.solved ∧ ∃ s r r', Reaches false s Ex.puzzle (fun _ _ => False) ∧
    s.solve 1000 [.nakedSingles] = .ok (.ok r) ∧ Returned 1000 ([.nakedSingles] ++ [.nakedPairs, .xyWing]) s r' := by
  have hg : WellFormed Ex.puzzle := by decide +kernel
  obtain ⟨s, hs⟩ := C41_constructors.1 Ex.puzzle hg
  obtain ⟨y, h1, h2⟩ := claims_spec more_check
  rw [Bool.and_eq_true] at h2
  obtain ⟨⟨ok, r⟩, h3, h4⟩ := claims_spec h2.1
  obtain ⟨⟨ok', r'⟩, h5, -⟩ := claims_spec h2.2
  unfold start at h1
  rw [hs] at h1
  cases h1
  cases h4
  refine ⟨by decide +kernel, s, r, r', .sudoku hg hs, result_ok h3, ?_⟩
  cases ok' with
  | true => exact Or.inl (result_ok h5)
  | false => exact Or.inr (result_err h5)

end Verif.Props
