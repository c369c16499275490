import Verif.Proofs.IsoSym
import Verif.Props.Together

/-!
# C64, C65: the order of the strategies, and sudokus that `solve` gives up on

`Together` is imported so that files that need much memory are not checked at the same time.
-/
namespace Verif.Props

open Verif Verif.Strat

variable {looked looked' : Bool} {s s' : Solver} {g g' : Grid} {X X' : Fin 81 → Digit → Prop} {fuel fuel' : Nat}

/-- **C65**: if `solve` gives up on a sudoku with a solution, then it did not fill all cells, so it never has a complete
grid and calls it unsolved.  There is at least one strategy in the list. -/
theorem C65_unfinished (h : Reaches looked s g X) (hf : 1000 ≤ fuel) (first : Strategy) (rest : List Strategy)
    (r : Grid × Deductions) (hr : s.solve fuel (first :: rest) = .ok (.error r))
    (t : Grid) (ht : SolutionOf g X t) : ∃ c : Fin 81, r.1[c] = 0 := by
  obtain ⟨gh, hs⟩ := h.inv.2 (Or.inr (Consistent.of_solution ht))
  exact solve_unfinished hf h.inv.1 hs hr (solve_few h hf ht (Or.inr hr)) ht

/-- C65: without strategies it is false: `solve` then calls every sudoku unsolved, also a complete grid. -/
theorem C65_no_strategies_false (hs : Solver.fromSudoku g = .ok s) : ∃ r, s.solve fuel [] = .ok (.error r) := by
  have h0 := C58_new_false g s hs
  unfold Solver.solve Solver.trySolve
  simp only [Res.ok_bind]
  split
  · rename_i h1
    exact absurd (h1.symm.trans h0) (by decide)
  · exact ⟨_, rfl⟩

private theorem sub_solution (hg : ∀ c : Fin 81, g[c] ≠ 0 → g'[c] = g[c]) (hX : ∀ c d, X c d → X' c d) {t : Grid}
    (ht : SolutionOf g' X' t) : SolutionOf g X t := by
  refine ⟨⟨ht.1.1, fun c h0 => ?_⟩, fun c d hx => ht.2 c d (hX c d hx)⟩
  rw [← hg c h0]
  exact ht.1.2 c (by rw [hg c h0]; exact h0)

/-- What C66 says, also when the given board is a transformation of the one that was solved. -/
theorem nothing_new_under (I : Iso) (h : Reaches looked s g X) (h' : Reaches looked' s' g' X') (hf : 1000 ≤ fuel)
    (hf' : 1000 ≤ fuel') (sts : List Strategy) (first : Strategy) (rest : List Strategy)
    (hsts : ∀ st ∈ sts, st ∈ first :: rest) (hw : WithSimpler (first :: rest)) (hn : .nakedSingles ∈ rest)
    (r r' : Grid × Deductions) (hr : Returned fuel sts s r) (hr' : Returned fuel' (first :: rest) s' r')
    (hg : ∀ c : Fin 81, g[c] ≠ 0 → r'.1[I.cell c] ≠ 0) (hX : ∀ c d, X c d → ¬ Left r' X' (I.cell c) (I.digit d))
    (t t' : Grid) (ht0 : SolutionOf g X t) (ht : SolutionOf g' X' t')
    (htt : ∀ c, dig t' (I.cell c) = I.digit (dig t c)) :
    (∀ c : Fin 81, r.1[c] ≠ 0 → r'.1[I.cell c] ≠ 0) ∧
    ∀ c d, Left r' X' (I.cell c) (I.digit d) → Left r X c d := by
  obtain ⟨s1, s2⟩ := C39_sound h hf _ r hr t ht0
  obtain ⟨s1', s2'⟩ := C39_sound h' hf' _ r' hr' t' ht
  have dg : ∀ {c : Fin 81} {d : Digit}, t[c] = d.get → dig t c = d := fun hd =>
    dig_eq ht0.1.1 hd
  have main : ∀ i x, r.2.get i = .ok (some x) → (∀ e, Pattern.entry x = some e → r'.1[I.cell e.cell] ≠ 0) ∧
      ∀ e ∈ Pattern.removed x, ¬ Left r' X' (I.cell e.cell) (I.digit e.digit) := by
    rcases hr' with hr' | hr'
    · obtain ⟨h1, -⟩ := C49_solved_partial h' (Or.inr (Consistent.of_solution ht))
        (fun c d hg hx => ht.2 c d hx (by rw [ht.1.2 c (by rw [hg]; exact Digit.get_ne_zero d), hg])) hf' _ r' hr'
      have hfull : ∀ c : Fin 81, r'.1[c] ≠ 0 := by
        intro c h0
        have := (h1.1.1.1 c).1
        rw [h0] at this
        exact absurd this (by decide)
      exact fun i x _ => ⟨fun e _ => hfull _, fun e _ hle => hfull _ hle.1⟩
    · have hex : ∀ st ∈ first :: rest, Exhausted first rest st := by
        intro st hst
        by_cases h1 : st ∈ rest
        · exact Or.inl h1
        · refine Or.inr ⟨(List.mem_cons.mp hst).resolve_right h1, ?_, Or.inl (List.ne_nil_of_mem hn)⟩
          rintro rfl
          exact h1 (by rw [(List.mem_cons.mp hst).resolve_right h1]; exact hn)
      have hnone : ∀ st ∈ first :: rest, ∀ x, ¬ Pattern.Matches (Left r' X') st x := by
        intro st hst
        refine C50_nothing_left_partial h' hf' first rest r' hr' t' ht st (hex st hst) fun st' hst' => hex st' ?_
        have key : ∀ st' ∈ simpler st, st' ∈ first :: rest := hw.2.2 st hst
        cases st <;> simp only [helpers, simpler, List.mem_cons, List.not_mem_nil, or_false, forall_eq_or_imp,
          forall_eq] at hst' key <;> try exact hst'.elim
        · subst hst'; exact hw.2.1
        · subst hst'; exact hw.2.1
        · subst hst'; exact hw.2.1
        · rcases hst' with rfl | rfl
          · exact List.mem_cons.mpr key.1
          · exact List.mem_cons.mpr key.2
        · subst hst'
          exact hw.2.2 _ (List.mem_cons.mpr key.2) _ (by simp [simpler])
      have hlive' : Live t (fun c => r'.1[I.cell c] ≠ 0) (fun c d => Left r' X' (I.cell c) (I.digit d)) := by
        refine ⟨fun c d hld hne => hne hld.1, fun c h0 => ?_, fun c c' d hne hs hld hd => ?_⟩
        · have h0 : r'.1[I.cell c] = 0 := by simpa using h0
          have htc := dig_spec ht.1.1 (I.cell c)
          rw [htt] at htc
          refine ⟨h0, fun hx => ht.2 _ _ hx htc, fun c' hs hc' => ?_, fun i x hx hm => (s2' i x hx).2 _ hm htc⟩
          have hne0 : r'.1[c'] ≠ 0 := by rw [hc']; exact Digit.get_ne_zero _
          have h1 := (s1' c').resolve_left hne0
          by_cases hcc : c' = I.cell c
          · subst hcc; exact hne0 h0
          · exact ht.1.1.2 c' _ hcc hs (by rw [← h1, hc', htc])
        · refine hld.2.2.1 (I.cell c') ((I.same _ _).mpr hs) ?_
          rw [(s1' _).resolve_left hne, dig_spec ht.1.1, htt, hd]
      intro i
      induction i using Nat.strong_induction_on with
      | _ i ih =>
        intro x hx
        obtain ⟨st, hst, -, E, R, hE, hR, hm⟩ := C47_explained h hf sts r hr t ht0 i x hx
        have hEt : ∀ e ∈ E, dig t e.cell = e.digit := by
          intro e he
          rcases hE e he with h1 | ⟨j, -, x', h1, h2⟩
          · exact dg (by rw [ht0.1.2 _ (by rw [h1]; exact Digit.get_ne_zero _), h1])
          · exact dg ((s2 j x' h1).1 e h2)
        have hRt : ∀ e ∈ R, dig t e.cell ≠ e.digit := by
          intro e he hd
          rcases hR e he with h1 | ⟨j, -, x', h1, h2⟩
          · exact ht0.2 _ _ h1 (by rw [← hd]; exact dig_spec ht0.1.1 _)
          · exact (s2 j x' h1).2 e h2 (by rw [← hd]; exact dig_spec ht0.1.1 _)
        have hE' : ∀ e ∈ E, r'.1[I.cell e.cell] ≠ 0 := by
          intro e he
          rcases hE e he with h1 | ⟨j, hj, x', h1, h2⟩
          · have hne : g[e.cell] ≠ 0 := by rw [h1]; exact Digit.get_ne_zero _
            exact hg _ hne
          · exact (ih j hj x' h1).1 e h2
        have hlive : Live t (fun c => ∃ e ∈ E, e.cell = c) (Pattern.after E R) := by
          refine ⟨?_, fun c hc => ⟨fun hmem => hRt _ hmem rfl, fun e he => ⟨fun h1 => hc ⟨e, he, h1⟩, ?_⟩⟩, ?_⟩
          · rintro c d hP ⟨e, he, rfl⟩
            exact (hP.2 e he).1 rfl
          · rintro ⟨hs, hd⟩
            have hne : e.cell ≠ c := fun h1 => hc ⟨e, he, h1⟩
            refine ht0.1.1.2 e.cell c hne hs ?_
            rw [dig_spec ht0.1.1 e.cell, dig_spec ht0.1.1 c, ← hd, hEt e he]
          · rintro c c' d ⟨e, he, rfl⟩ hs hP hd
            exact (hP.2 e he).2 ⟨hs, by rw [← hd, hEt e he]⟩
        have hle : ∀ c d, Left r' X' (I.cell c) (I.digit d) → Pattern.after E R c d := by
          intro c d hld
          refine ⟨fun hmem => ?_, fun e he => ⟨?_, ?_⟩⟩
          · rcases hR _ hmem with h1 | ⟨j, hj, x', h1, h2⟩
            · exact hX _ _ h1 hld
            · exact (ih j hj x' h1).2 _ h2 hld
          · rintro rfl
            exact hE' e he hld.1
          · rintro ⟨hs, rfl⟩
            refine hld.2.2.1 _ ((I.same _ _).mpr hs) ?_
            rw [(s1' _).resolve_left (hE' e he), dig_spec ht.1.1, htt, hEt e he]
        exact persist ht0.1.1 hlive hlive' hle (N := fun st => st ∈ first :: rest)
          (fun st hst x hx => (I.transport hx).elim (hnone st hst)) hw.1 hw.2.1 hw.2.2 (hsts st hst) hm
  have entered : ∀ c : Fin 81, r.1[c] ≠ 0 → r'.1[I.cell c] ≠ 0 := by
    intro c hc
    obtain ⟨a1, -, -⟩ := C48_accounted h (Or.inr (Consistent.of_solution ht0)) hf _ r hr
    obtain ⟨d, h1, h2 | ⟨i, x, h2, h3⟩⟩ := a1 c hc
    · exact hg _ (by rw [h2]; exact Digit.get_ne_zero _)
    · exact (main i x h2).1 _ h3
  refine ⟨entered, fun c d hld => ⟨?_, fun hx => hX _ _ hx hld, fun c' hs hc' => ?_, fun i x hx hm =>
    (main i x hx).2 _ hm hld⟩⟩
  · by_contra h0
    exact entered c h0 hld.1
  · have hne : r.1[c'] ≠ 0 := by rw [hc']; exact Digit.get_ne_zero _
    refine hld.2.2.1 (I.cell c') ((I.same _ _).mpr hs) ?_
    rw [(s1' _).resolve_left (entered c' hne), dig_spec ht.1.1, htt, dg (((s1 c').resolve_left hne).symm.trans hc')]

/-- **C66**: solving finds nothing that was already found: let `r'` be the result of solving with a list of strategies that
contains both kinds of singles (`NakedSingles` not only in the first place) and the simpler variants of its strategies.
A solver that is given digits of this result, and from which candidates are excluded that are not left in it, enters only
digits of this result and excludes only candidates that are not left in it, with any strategies of the list. -/
theorem C66_nothing_new (h : Reaches looked s g X) (h' : Reaches looked' s' g' X') (hf : 1000 ≤ fuel) (hf' : 1000 ≤ fuel')
    (sts : List Strategy) (first : Strategy) (rest : List Strategy) (hsts : ∀ st ∈ sts, st ∈ first :: rest)
    (hw : WithSimpler (first :: rest)) (hn : .nakedSingles ∈ rest) (r r' : Grid × Deductions)
    (hr : Returned fuel sts s r) (hr' : Returned fuel' (first :: rest) s' r')
    (hg : ∀ c : Fin 81, g[c] ≠ 0 → r'.1[c] = g[c]) (hX : ∀ c d, X c d → ¬ Left r' X' c d)
    (t : Grid) (ht0 : SolutionOf g X t) (ht : SolutionOf g' X' t) :
    (∀ c : Fin 81, r.1[c] ≠ 0 → r'.1[c] = r.1[c]) ∧ ∀ c d, Left r' X' c d → Left r X c d := by
  obtain ⟨s1, -⟩ := C39_sound h hf _ r hr t ht0
  obtain ⟨s1', -⟩ := C39_sound h' hf' _ r' hr' t ht
  obtain ⟨h1, h2⟩ := nothing_new_under Iso.refl h h' hf hf' sts first rest hsts hw hn r r' hr hr'
    (fun c hc => show r'.1[c] ≠ 0 by rw [hg c hc]; exact hc) hX t t ht0 ht (fun _ => rfl)
  exact ⟨fun c hc => by rw [(s1' c).resolve_left (h1 c hc), (s1 c).resolve_left hc], h2⟩

/-- **C64**: it does not matter in which order and how often strategies are listed, and more strategies, clues or
exclusions never make `solve` find less: with a list of strategies that contains all strategies of another one, both kinds
of singles (`NakedSingles` not only in the first place) and the simpler variants of its strategies, `solve` enters every
digit that it enters with the other list, and leaves no candidate that it excludes with the other list. -/
theorem C64_more (h : Reaches looked s g X) (h' : Reaches looked' s' g' X') (hf : 1000 ≤ fuel) (hf' : 1000 ≤ fuel')
    (hg : ∀ c : Fin 81, g[c] ≠ 0 → g'[c] = g[c]) (hX : ∀ c d, X c d → X' c d)
    (sts : List Strategy) (first : Strategy) (rest : List Strategy) (hsts : ∀ st ∈ sts, st ∈ first :: rest)
    (hw : WithSimpler (first :: rest)) (hn : .nakedSingles ∈ rest) (r r' : Grid × Deductions)
    (hr : Returned fuel sts s r) (hr' : Returned fuel' (first :: rest) s' r')
    (t : Grid) (ht : SolutionOf g' X' t) :
    (∀ c : Fin 81, r.1[c] ≠ 0 → r'.1[c] = r.1[c]) ∧ ∀ c d, Left r' X' c d → Left r X c d := by
  obtain ⟨b1, -⟩ := C48_entered h' hf' _ r' hr' t ht
  exact C66_nothing_new h h' hf hf' sts first rest hsts hw hn r r' hr hr'
    (fun c hc => by rw [b1 c (by rw [hg c hc]; exact hc), hg c hc]) (fun c d hx hld => hld.2.1 (hX c d hx)) t
    (sub_solution hg hX ht) ht

/-- **C66**: solving the grid that came back again changes nothing, with any strategies of the list. -/
theorem C66_again (h' : Reaches looked' s' g' X') (hf : 1000 ≤ fuel) (hf' : 1000 ≤ fuel')
    (sts : List Strategy) (first : Strategy) (rest : List Strategy) (hsts : ∀ st ∈ sts, st ∈ first :: rest)
    (hw : WithSimpler (first :: rest)) (hn : .nakedSingles ∈ rest) (r r' : Grid × Deductions)
    (hs : Solver.fromSudoku r'.1 = .ok s)
    (hr : Returned fuel sts s r) (hr' : Returned fuel' (first :: rest) s' r')
    (t : Grid) (ht : SolutionOf g' X' t) : r.1 = r'.1 := by
  obtain ⟨a1, -⟩ := C48_accounted h' (Or.inr (Consistent.of_solution ht)) hf' _ r' hr'
  obtain ⟨s1', -⟩ := C39_sound h' hf' _ r' hr' t ht
  have hwf : WellFormed r'.1 := by
    intro c
    by_cases h0 : r'.1[c] = 0
    · rw [h0]; decide
    · obtain ⟨d, hd, -⟩ := a1 c h0
      rw [hd]
      exact (by decide : ∀ d : Digit, d.get ≤ 9) d
  have h : Reaches false s r'.1 (fun _ _ => False) := .sudoku hwf hs
  have ht0 : SolutionOf r'.1 (fun _ _ => False) t :=
    ⟨⟨ht.1.1, fun c hc => ((s1' c).resolve_left hc).symm⟩, fun _ _ hx => hx.elim⟩
  obtain ⟨e1, -⟩ := C66_nothing_new h h' hf hf' sts first rest hsts hw hn r r' hr hr' (fun _ _ => rfl)
    (fun _ _ hx => hx.elim) t ht0 ht
  obtain ⟨b1, -⟩ := C48_entered h hf _ r hr t ht0
  refine Vector.ext fun i hi => ?_
  by_cases h0 : r.1[(⟨i, hi⟩ : Fin 81)] = 0
  · by_cases h1 : r'.1[(⟨i, hi⟩ : Fin 81)] = 0
    · exact h0.trans h1.symm
    · exact b1 ⟨i, hi⟩ h1
  · exact (e1 ⟨i, hi⟩ h0).symm

/-- **C64**: two lists with the same strategies give the same result, whatever the order and however often a strategy is
listed: the same grid, the same candidates left, and both report the sudoku as solved or neither.  The lists contain both
kinds of singles (`NakedSingles` not only in the first place) and the simpler variants of their strategies. -/
theorem C64_order (h : Reaches looked s g X) (h' : Reaches looked' s' g X) (hf : 1000 ≤ fuel) (hf' : 1000 ≤ fuel')
    (first first' : Strategy) (rest rest' : List Strategy) (hsts : ∀ st, st ∈ first :: rest ↔ st ∈ first' :: rest')
    (hw : WithSimpler (first :: rest)) (hn : .nakedSingles ∈ rest) (hn' : .nakedSingles ∈ rest')
    (r r' : Grid × Deductions) (hr : Returned fuel (first :: rest) s r) (hr' : Returned fuel' (first' :: rest') s' r')
    (t : Grid) (ht : SolutionOf g X t) :
    r.1 = r'.1 ∧ (∀ c d, Left r X c d ↔ Left r' X c d) ∧
    (s.solve fuel (first :: rest) = .ok (.ok r) ↔ s'.solve fuel' (first' :: rest') = .ok (.ok r')) := by
  have hw' : WithSimpler (first' :: rest') :=
    ⟨(hsts _).mp hw.1, (hsts _).mp hw.2.1, fun st hst st' hst' => (hsts _).mp (hw.2.2 st ((hsts _).mpr hst) st' hst')⟩
  obtain ⟨e1, l1⟩ := C64_more h h' hf hf' (fun _ _ => rfl) (fun _ _ hx => hx) _ first' rest' (fun st => (hsts st).mp) hw' hn'
    r r' hr hr' t ht
  obtain ⟨e2, l2⟩ := C64_more h' h hf' hf (fun _ _ => rfl) (fun _ _ hx => hx) _ first rest (fun st => (hsts st).mpr) hw hn
    r' r hr' hr t ht
  have heq : r.1 = r'.1 := by
    refine Vector.ext fun i hi => ?_
    by_cases h0 : r.1[(⟨i, hi⟩ : Fin 81)] = 0
    · by_cases h1 : r'.1[(⟨i, hi⟩ : Fin 81)] = 0
      · exact h0.trans h1.symm
      · exact e2 ⟨i, hi⟩ h1
    · exact (e1 ⟨i, hi⟩ h0).symm
  have hcons := Consistent.of_solution ht
  have hx : ∀ (c : Fin 81) (d : Digit), g[c] = d.get → ¬ X c d := fun c d hg hx =>
    ht.2 c d hx (by rw [ht.1.2 c (by rw [hg]; exact Digit.get_ne_zero d), hg])
  have full : ∀ {q : Grid}, Solved q → ∀ c : Fin 81, q[c] ≠ 0 := by
    intro q hq c h0
    have := (hq.1 c).1
    rw [h0] at this
    exact absurd this (by decide)
  refine ⟨heq, fun c d => ⟨l2 c d, l1 c d⟩, fun hok => ?_, fun hok => ?_⟩
  · rcases hr' with hr' | hr'
    · exact hr'
    · obtain ⟨c, hc⟩ := C65_unfinished h' hf' first' rest' r' hr' t ht
      rw [← heq] at hc
      exact absurd hc (full (C49_solved_partial h (Or.inr hcons) hx hf _ r hok).1.1.1 c)
  · rcases hr with hr | hr
    · exact hr
    · obtain ⟨c, hc⟩ := C65_unfinished h hf first rest r hr t ht
      rw [heq] at hc
      exact absurd hc (full (C49_solved_partial h' (Or.inr hcons) hx hf' _ r' hok).1.1.1 c)

/-! ## The conditions are needed, and can be met -/

set_option maxRecDepth 100000

/-- The digits of a grid state. -/
def breaksDigits : Grid := #v[
    0,0,3,9,2,0,0,5,7, 9,0,0,3,0,5,0,2,1, 2,5,0,8,0,0,0,9,3,
    0,0,0,0,3,2,9,7,6, 0,2,9,0,6,4,1,3,8, 0,3,6,0,9,8,2,4,5,
    3,7,2,6,8,9,5,1,4, 0,1,4,2,5,3,7,0,9, 0,9,5,4,1,7,3,0,2]

/-- The grid state: 8 is excluded from the cells 0 and 10, and 4 from cell 1.  Then cell 0 (the candidates 1, 4 and 6), cell 5
(1 and 6) and cell 10 (4 and 6) are an XYZ-wing, which excludes 6 from cell 1. -/
def wingBreaks : Vector CellState 81 := Vector.ofFn (fun i : Fin 81 =>
  if breaksDigits[i] ≠ 0 then .digit (Fin.ofNat 9 (breaksDigits[i].toNat - 1))
  else if i.val = 0 ∨ i.val = 10 then .candidates 0b101111111#16
  else if i.val = 1 then .candidates 0b111110111#16
  else .candidates 0b111111111#16)

private theorem wing_first : claims (startState wingBreaks []) (fun y =>
    claims (result [.hiddenSingles, .nakedSingles, .xyzWing, .lockedCandidates] y.2.1) (fun r =>
      !r.1 && decide (r.2.1[(1 : Fin 81)] = 8))) = true := by
  decide +kernel

private theorem locked_first : claims (startState wingBreaks []) (fun y =>
    claims (result [.hiddenSingles, .nakedSingles, .lockedCandidates, .xyzWing] y.2.1) (fun r =>
      !r.1 && decide (r.2.1[(1 : Fin 81)] = 0))) = true := by
  decide +kernel

/-- Solving the grid state as computed. -/
private theorem breaks_gives {sts : List Strategy} {p : Bool × Grid × Deductions → Bool}
    (h : claims (startState wingBreaks []) (fun y => claims (result sts y.2.1) (fun r => !r.1 && p r)) = true)
    {s : Solver} (hs : Solver.fromGridState wingBreaks = .ok s) :
    ∃ r, s.solve 1000 sts = .ok (.error r) ∧ p (false, r) = true := by
  obtain ⟨y, h1, h2⟩ := claims_spec h
  obtain ⟨⟨ok, r⟩, h3, h4⟩ := claims_spec h2
  simp only [Bool.and_eq_true, Bool.not_eq_true'] at h4
  obtain ⟨rfl, h4⟩ := h4
  unfold startState at h1
  rw [hs] at h1
  cases h1
  exact ⟨r, result_err h3, h4⟩

private theorem breaks_solvable : SolutionOf (digitsOf wingBreaks) (excludedBy wingBreaks) Ex.solved := by
  refine ⟨by decide +kernel, fun c d hx => ?_⟩
  have key : ∀ (c : Fin 81) (d : Digit), Ex.solved[c] = d.get → (match wingBreaks[c] with
      | .digit _ => true
      | .candidates cands => decide (d.val ∈ elems cands)) = true := by decide +kernel
  intro h
  have := key c d h
  unfold excludedBy at hx
  cases hc : wingBreaks[c] with
  | digit _ => rw [hc] at hx; exact hx
  | candidates _ => rw [hc] at hx this; exact hx (of_decide_eq_true this)

/-- C64: without `XyWing`, a simpler variant of `XyzWing`, the order does matter: if `LockedCandidates` comes first, it
excludes a candidate of an XYZ-wing, which becomes an XY-wing and is then not found. -/
theorem C64_without_simpler_false : ∃ s g X t r r', Reaches false s g X ∧ SolutionOf g X t ∧
    Returned 1000 [.hiddenSingles, .nakedSingles, .xyzWing, .lockedCandidates] s r ∧
    Returned 1000 [.hiddenSingles, .nakedSingles, .lockedCandidates, .xyzWing] s r' ∧ r.1 ≠ r'.1 := by
  obtain ⟨s, hs⟩ := C41_constructors.2 wingBreaks
  obtain ⟨r, h1, h2⟩ := breaks_gives wing_first hs
  obtain ⟨r', h3, h4⟩ := breaks_gives locked_first hs
  refine ⟨s, _, _, Ex.solved, r, r', .gridState hs, breaks_solvable, Or.inr h1, Or.inr h3, fun he => ?_⟩
  have h2 := of_decide_eq_true h2
  have h4 := of_decide_eq_true h4
  dsimp only at h2 h4
  rw [he, h4] at h2
  exact absurd h2 (by decide)

/-- C65: `solve` gives up on this grid state, and there is an empty cell. -/
example : ∃ s r, Solver.fromGridState wingBreaks = .ok s ∧
    s.solve 1000 [.hiddenSingles, .nakedSingles, .lockedCandidates, .xyzWing] = .ok (.error r) ∧ r.1[(1 : Fin 81)] = 0 := by
  obtain ⟨s, hs⟩ := C41_constructors.2 wingBreaks
  obtain ⟨r', h3, h4⟩ := breaks_gives locked_first hs
  exact ⟨s, r', hs, h3, of_decide_eq_true h4⟩

/-- C64: for this grid state, all strategies with the simplest ones first or last. -/
example : ∃ s r r', Reaches false s (digitsOf wingBreaks) (excludedBy wingBreaks) ∧
    Returned 1000 [.nakedSingles, .hiddenSingles, .lockedCandidates, .nakedPairs, .nakedTriples, .hiddenPairs,
      .hiddenTriples, .xWing, .swordfish, .xyWing, .xyzWing, .nakedQuads, .hiddenQuads, .jellyfish, .nakedSingles] s r ∧
    Returned 1000 [.hiddenSingles, .jellyfish, .hiddenQuads, .nakedQuads, .xyzWing, .xyWing, .swordfish, .xWing,
      .hiddenTriples, .hiddenPairs, .nakedTriples, .nakedPairs, .lockedCandidates, .nakedSingles] s r' ∧
    r.1 = r'.1 ∧ r.1[(1 : Fin 81)] = 8 := by
  obtain ⟨s, hs⟩ := C41_constructors.2 wingBreaks
  have hre := Reaches.gridState hs
  obtain ⟨r, hr⟩ := C41_solve hre (Nat.le_refl 1000) [.nakedSingles, .hiddenSingles, .lockedCandidates, .nakedPairs,
    .nakedTriples, .hiddenPairs, .hiddenTriples, .xWing, .swordfish, .xyWing, .xyzWing, .nakedQuads, .hiddenQuads,
    .jellyfish, .nakedSingles] (by decide)
  obtain ⟨r', hr'⟩ := C41_solve hre (Nat.le_refl 1000) [.hiddenSingles, .jellyfish, .hiddenQuads, .nakedQuads, .xyzWing,
    .xyWing, .swordfish, .xWing, .hiddenTriples, .hiddenPairs, .nakedTriples, .nakedPairs, .lockedCandidates,
    .nakedSingles] (by decide)
  refine ⟨s, r, r', hre, hr, hr', ?_, ?_⟩
  · refine (C64_order hre hre (Nat.le_refl 1000) (Nat.le_refl 1000) _ _ _ _ (fun st => ?_) (by decide) (by decide)
      (by decide) r r' hr hr' Ex.solved breaks_solvable).1
    cases st <;> decide
  · obtain ⟨r0, h1, h2⟩ := breaks_gives wing_first hs
    have h2 : r0.1[(1 : Fin 81)] = 8 := of_decide_eq_true h2
    rw [(C64_more hre hre (Nat.le_refl 1000) (Nat.le_refl 1000) (fun _ _ => rfl) (fun _ _ hx => hx) _ _ _
      (by decide) (by decide) (by decide) r0 r (Or.inr h1) hr Ex.solved breaks_solvable).1 1
      (by rw [h2]; decide), h2]

/-- C66: for the result of solving a sudoku with two solutions, which is not complete. -/
example : ∃ s r' s2 r, Reaches false s ambiguous (fun _ _ => False) ∧
    s.solve 1000 [.hiddenSingles, .nakedSingles, .lockedCandidates] = .ok (.error r') ∧
    Solver.fromSudoku r'.1 = .ok s2 ∧ Returned 1000 [.lockedCandidates, .nakedSingles] s2 r ∧ r.1 = r'.1 ∧
    r.1[(4 : Fin 81)] = 0 := by
  have hg : WellFormed ambiguous := by decide +kernel
  have ht : SolutionOf ambiguous (fun _ _ => False) Ex.solved := ⟨by decide +kernel, fun _ _ h => h.elim⟩
  have ht' : SolutionOf ambiguous (fun _ _ => False) otherSolution := ⟨by decide +kernel, fun _ _ h => h.elim⟩
  obtain ⟨s, hs⟩ := C41_constructors.1 ambiguous hg
  have hre := Reaches.sudoku hg hs
  obtain ⟨r', hr'⟩ := C41_solve hre (Nat.le_refl 1000) [.hiddenSingles, .nakedSingles, .lockedCandidates] (by decide)
  have h4 : r'.1[(4 : Fin 81)] = 0 := by
    rcases (C39_sound hre (Nat.le_refl 1000) _ r' hr' _ ht).1 4 with h0 | h0
    · exact h0
    rcases (C39_sound hre (Nat.le_refl 1000) _ r' hr' _ ht').1 4 with h1 | h1
    · exact h1
    · exact absurd (h0.symm.trans h1) (by decide +kernel)
  have herr := hr'.resolve_left fun hok => by
    have := ((C40_from_sudoku ambiguous hg hs (Nat.le_refl 1000) _ r' hok).1.1.1 4).1
    rw [h4] at this
    exact absurd this (by decide)
  obtain ⟨hwf, -⟩ := C63_same_solutions ambiguous hg hs (Nat.le_refl 1000) _ r' hr'
  obtain ⟨s2, hs2⟩ := C41_constructors.1 r'.1 hwf
  obtain ⟨r, hr⟩ := C41_solve (.sudoku hwf hs2) (Nat.le_refl 1000) [.lockedCandidates, .nakedSingles] (by decide)
  have he := C66_again hre (Nat.le_refl 1000) (Nat.le_refl 1000) [.lockedCandidates, .nakedSingles] .hiddenSingles
    [.nakedSingles, .lockedCandidates] (by decide) (by decide) (by decide) r r' hs2 hr hr' Ex.solved ht
  exact ⟨s, r', s2, r, hre, herr, hs2, hr, he, by rw [he]; exact h4⟩

end Verif.Props
