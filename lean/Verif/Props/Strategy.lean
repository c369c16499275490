import Verif.Proofs.Fuel
import Verif.Proofs.StratResult
import Verif.Spec.Examples

/-!
# Properties of the strategy solver

`Reaches looked s g X` (`Spec/History.lean`) says how the solver `s` was made and used before `solve` is called.
`fuel` bounds the number of iterations in the model; the theorems hold for every bound from 1000 on, so no bound is
reached.
-/
namespace Verif.Props

open Verif Verif.Strat

variable {looked : Bool} {s : Solver} {g : Grid} {X : Fin 81 → Digit → Prop} {fuel : Nat}

private theorem returned (h : Reaches looked s g X) (hf : 1000 ≤ fuel) {sts : List Strategy} {r : Grid × Deductions}
    (hr : Returned fuel sts s r) : ∃ s', Final (usable sts) s s' ∧ Respects s s' ∧ r = s'.outcome ∧
      (s.solve fuel sts = .ok (.ok r) → s'.nSolved = 81) := by
  rcases hr with hr | hr
  · obtain ⟨s', h1, h2, h3⟩ := solve_returned hf h.inv.1.w hr
    refine ⟨s', h1, h2, ?_⟩
    rcases h3 with ⟨h3, h4⟩ | ⟨h3, h4⟩
    · cases h4; exact ⟨rfl, fun _ => h3⟩
    · cases h4
  · obtain ⟨s', h1, h2, h3⟩ := solve_returned hf h.inv.1.w hr
    refine ⟨s', h1, h2, ?_⟩
    rcases h3 with ⟨h3, h4⟩ | ⟨h3, h4⟩
    · cases h4
    · cases h4
      refine ⟨rfl, fun h5 => ?_⟩
      rw [h5] at hr
      cases hr

/-- **C39**: whatever strategies are run, the grid that comes back contains nothing that differs from a solution, every
deduction enters only digits of the solution and excludes only candidates that are not in the solution. -/
theorem C39_sound (h : Reaches looked s g X) (hf : 1000 ≤ fuel) (sts : List Strategy) (r : Grid × Deductions)
    (hr : Returned fuel sts s r) (t : Grid) (ht : SolutionOf g X t) :
    (∀ c : Fin 81, r.1[c] = 0 ∨ r.1[c] = t[c]) ∧
    ∀ i d, r.2.get i = .ok (some d) →
      (∀ e, Pattern.entry d = some e → t[e.cell] = e.digit.get) ∧ ∀ e ∈ Pattern.removed d, t[e.cell] ≠ e.digit.get := by
  obtain ⟨s', h1, -, rfl, -⟩ := returned h hf hr
  obtain ⟨gh, hs⟩ := h.inv.2 (Or.inr (Consistent.of_solution ht))
  refine ⟨fun c => ?_, (solve_explains h.inv.1 hs h1).sound ht⟩
  by_cases h0 : s'.outcome.1[c] = 0
  · exact Or.inl h0
  · exact Or.inr (outcome_agree ((h1.sem gh hs).1.pres t ht.1.1 (h.inv.1.agree_of ht)) c h0).symm

/-- **C39** for a solver that was just made from a sudoku. -/
theorem C39_from_sudoku (g : Grid) (hg : WellFormed g) (hs : Solver.fromSudoku g = .ok s) (hf : 1000 ≤ fuel)
    (sts : List Strategy) (r : Grid × Deductions) (hr : Returned fuel sts s r) (t : Grid) (ht : IsSolution g t) :
    (∀ c : Fin 81, r.1[c] = 0 ∨ r.1[c] = t[c]) ∧
    ∀ i d, r.2.get i = .ok (some d) →
      (∀ e, Pattern.entry d = some e → t[e.cell] = e.digit.get) ∧ ∀ e ∈ Pattern.removed d, t[e.cell] ≠ e.digit.get :=
  C39_sound (.sudoku hg hs) hf sts r hr t ⟨ht, fun _ _ h => h.elim⟩

/-- **C49**.  The full claim is that, after any calls of the public methods, the grid of an `Ok` of `solve` is a solution
of the digits given so far without excluded digits, and there is no other one.  It is proved for histories in which no
excluded digit was inserted and `cell_state` was not called while a contradiction was visible.  Without these conditions
it is false: `C49_looked_false`, `C49_excluded_false`. -/
theorem C49_solved_partial (h : Reaches looked s g X) (hc : looked = false ∨ Consistent g X)
    (hx : ∀ (c : Fin 81) (d : Digit), g[c] = d.get → ¬ X c d) (hf : 1000 ≤ fuel) (sts : List Strategy)
    (r : Grid × Deductions) (hr : s.solve fuel sts = .ok (.ok r)) :
    SolutionOf g X r.1 ∧ ∀ t, SolutionOf g X t → t = r.1 := by
  obtain ⟨s', h1, h2, rfl, h81⟩ := returned h hf (Or.inl hr)
  obtain ⟨gh, hs⟩ := h.inv.2 hc
  obtain ⟨t', g1, g2, g3, g4⟩ := solve_full h.inv.1 hs hx h1 h2 (h81 hr)
  rw [g3]
  refine ⟨g1, fun t ht => ?_⟩
  have ha := (h1.sem gh hs).1.pres t ht.1.1 (h.inv.1.agree_of ht)
  have key : ∀ c : Fin 81, t[c] = t'[c] := by
    intro c
    obtain ⟨e, he, rfl⟩ := g4 c
    rw [ha.ded e he, g2.ded e he]
  exact Vector.ext fun i hi => key ⟨i, hi⟩

/-- **C40**: if `solve` returns `Ok`, the grid is a solution of the sudoku and there is no other one. -/
theorem C40_from_sudoku (g : Grid) (hg : WellFormed g) (hs : Solver.fromSudoku g = .ok s) (hf : 1000 ≤ fuel)
    (sts : List Strategy) (r : Grid × Deductions) (hr : s.solve fuel sts = .ok (.ok r)) :
    IsSolution g r.1 ∧ ∀ t, IsSolution g t → t = r.1 := by
  obtain ⟨h1, h2⟩ := C49_solved_partial (.sudoku hg hs) (Or.inl rfl) (fun _ _ _ h => h) hf sts r hr
  exact ⟨h1.1, fun t ht => h2 t ⟨ht, fun _ _ h => h.elim⟩⟩

/-- **C41**: the constructors return. -/
theorem C41_constructors : (∀ g : Grid, WellFormed g → ∃ s, Solver.fromSudoku g = .ok s) ∧
    ∀ state : Vector CellState 81, ∃ s, Solver.fromGridState state = .ok s := by
  refine ⟨fun g hg => ?_, fun state => ?_⟩
  · obtain ⟨s, h, -⟩ := fromSudoku_spec hg
    exact ⟨s, h⟩
  · obtain ⟨s, h, -⟩ := fromGridState_spec state
    exact ⟨s, h⟩

/-- **C41**: `solve` returns after every history, for all strategies but `AvoidableRectangles`. -/
theorem C41_solve (h : Reaches looked s g X) (hf : 1000 ≤ fuel) (sts : List Strategy)
    (hav : Strategy.avoidableRectangles ∉ sts) : ∃ r, Returned fuel sts s r := by
  obtain ⟨s', -, -, h3⟩ := solve_total (sts := sts) (fun st hst he => hav (he ▸ hst)) hf h.inv.1.w
  rcases h3 with ⟨-, h3⟩ | ⟨-, h3⟩
  · exact ⟨_, Or.inl h3⟩
  · exact ⟨_, Or.inr h3⟩

/-- **C41**: the result of `solve` does not depend on the fuel of the model. -/
theorem C41_terminates (h : Reaches looked s g X) (sts : List Strategy) (hav : Strategy.avoidableRectangles ∉ sts) :
    ∃ v, ∀ fuel, 1000 ≤ fuel → s.solve fuel sts = .ok v := by
  obtain ⟨r, hr⟩ := C41_solve h (Nat.le_refl 1000) sts hav
  rcases hr with hr | hr
  · exact ⟨_, fun fuel hf => (solve_le hf sts s).ok hr⟩
  · exact ⟨_, fun fuel hf => (solve_le hf sts s).ok hr⟩

/-- **C41**: a sudoku without a solution gives `Err`. -/
theorem C41_unsolvable (h : Reaches looked s g X) (hc : looked = false ∨ Consistent g X)
    (hx : ∀ (c : Fin 81) (d : Digit), g[c] = d.get → ¬ X c d) (hf : 1000 ≤ fuel) (sts : List Strategy)
    (hav : Strategy.avoidableRectangles ∉ sts) (hno : ∀ t, ¬ SolutionOf g X t) :
    ∃ r, s.solve fuel sts = .ok (.error r) := by
  obtain ⟨r, hr⟩ := C41_solve h hf sts hav
  rcases hr with hr | hr
  · exact absurd (C49_solved_partial h hc hx hf sts r hr).1 (hno _)
  · exact ⟨r, hr⟩

/-- **C41** for a solver that was just made from a sudoku. -/
theorem C41_from_sudoku (g : Grid) (hg : WellFormed g) (hf : 1000 ≤ fuel) (sts : List Strategy)
    (hav : Strategy.avoidableRectangles ∉ sts) : ∃ s r, Solver.fromSudoku g = .ok s ∧ Returned fuel sts s r ∧
      ((∀ t, ¬ IsSolution g t) → s.solve fuel sts = .ok (.error r)) := by
  obtain ⟨s, hs⟩ := C41_constructors.1 g hg
  obtain ⟨r, hr⟩ := C41_solve (.sudoku hg hs) hf sts hav
  refine ⟨s, r, hs, hr, fun hno => ?_⟩
  rcases hr with hr | hr
  · exact absurd (C40_from_sudoku g hg hs hf sts r hr).1 (hno _)
  · exact hr

/-- **C41**: `AvoidableRectangles` is really excluded: unless the solver is already solved, it panics. -/
theorem C41_avoidable_rectangles (s : Solver) (hs : s.isSolved = false) (rest : List Strategy) (fuel : Nat) :
    s.solve (fuel + 1) (.avoidableRectangles :: rest) = .panic := by
  unfold Solver.solve Solver.trySolve
  dsimp only
  unfold solveLoop
  rw [hs]
  rfl

/-- **C42**: `to_sudoku` returns the clues and the inserted digits. -/
theorem C42_to_sudoku (h : Reaches looked s g X) : s.toSudoku.2 = g := h.inv.1.updateGrid.2

/-- **C42**: `cell_state` and `grid_state` return; they report a digit exactly for the cells that have one. -/
theorem C42_digits (h : Reaches looked s g X) (hf : 1000 ≤ fuel) :
    (∀ c, ∃ s' r, s.cellState fuel c = .ok (s', r) ∧ ∀ d : Digit, r = .digit d ↔ g[c] = d.get) ∧
    ∃ l, s.gridState fuel = .ok l ∧ ∃ hl : l.length = 81,
      ∀ (c : Fin 81) (d : Digit), l[c.val]'(by omega) = .digit d ↔ g[c] = d.get := by
  have key : ∀ s1 : Solver, Inv s1 g X → s1.grid = g → ∀ c, ∃ r, s1.stateOf c = .ok r ∧
      ∀ d : Digit, r = .digit d ↔ g[c] = d.get := by
    intro s1 hi hg c
    rcases stateOf_spec hi hg c with ⟨h0, e⟩ | ⟨d, h0, e⟩
    · exact ⟨_, e, fun d => ⟨fun hr => CellState.noConfusion hr, fun hr => absurd (hr.symm.trans h0) (Digit.get_ne_zero d)⟩⟩
    · refine ⟨_, e, fun d' => ⟨fun hr => by cases hr; exact h0, fun hr => ?_⟩⟩
      rw [Digit.get_inj (h0.symm.trans hr)]
  constructor
  · intro c
    obtain ⟨s1, r, e1, e2, hi, hg, -⟩ := cellState_ok h.inv.1 hf c
    obtain ⟨r', e3, h1⟩ := key s1 hi hg c
    rw [e2] at e3
    cases e3
    exact ⟨s1, r, e1, h1⟩
  · obtain ⟨s1, ok, hu, hi, hg, -⟩ := look_ok h.inv.1 hf
    exact gridState_ok hu (key s1 hi hg)

/-- **C42**: the candidates reported for an empty cell include all possible digits. -/
theorem C42_candidates_cover (h : Reaches looked s g X) (hc : looked = false ∨ Consistent g X) (hf : 1000 ≤ fuel) :
    (∀ c, ∃ s' r, s.cellState fuel c = .ok (s', r) ∧ Covering g X c r) ∧
    ∃ l, s.gridState fuel = .ok l ∧ ∃ hl : l.length = 81, ∀ c : Fin 81, Covering g X c (l[c.val]'(by omega)) := by
  obtain ⟨gh, hs⟩ := h.inv.2 hc
  constructor
  · intro c
    obtain ⟨s1, r, e1, e2, hi, hg, h1, -⟩ := cellState_ok h.inv.1 hf c
    obtain ⟨gh', hgh⟩ := h1 gh hs
    obtain ⟨r', e3, h3⟩ := state_covering hi hg hgh c
    rw [e2] at e3
    cases e3
    exact ⟨s1, r, e1, h3⟩
  · obtain ⟨s1, ok, hu, hi, hg, h1, -⟩ := look_ok h.inv.1 hf
    obtain ⟨gh', hgh⟩ := h1 gh hs
    exact gridState_ok hu (state_covering hi hg hgh)

/-- **C42**, candidates.  The full claim is that the candidates of an empty cell are exactly the digits not yet present in
its row, column and block.  That is false for sudokus with a visible contradiction (`C42_stale_candidates`); it is proved
here for all others. -/
theorem C42_candidates_partial (h : Reaches looked s g X) (hc : Consistent g X) (hf : 1000 ≤ fuel) :
    (∀ c, ∃ s' r, s.cellState fuel c = .ok (s', r) ∧ Faithful g X c r) ∧
    ∃ l, s.gridState fuel = .ok l ∧ ∃ hl : l.length = 81, ∀ c : Fin 81, Faithful g X c (l[c.val]'(by omega)) := by
  obtain ⟨gh, hs⟩ := h.inv.2 (Or.inr hc)
  constructor
  · intro c
    obtain ⟨s1, r, e1, e2, hi, hg, -, h1⟩ := cellState_ok h.inv.1 hf c
    obtain ⟨gh', hgh⟩ := h1 hc gh hs
    obtain ⟨r', e3, h3⟩ := state_faithful hi hg hc hgh c
    rw [e2] at e3
    cases e3
    exact ⟨s1, r, e1, h3⟩
  · obtain ⟨s1, ok, hu, hi, hg, -, h1⟩ := look_ok h.inv.1 hf
    obtain ⟨gh', hgh⟩ := h1 hc gh hs
    exact gridState_ok hu (state_faithful hi hg hc hgh)

/-- **C44**: `insert_candidate` returns `Ok` exactly if the cell is empty or already holds this digit; then the digit is
entered and nothing else changes, otherwise nothing changes. -/
theorem C44_insert_candidate (h : Reaches looked s g X) (e : Candidate) :
    ∃ s' ok, s.insertCandidate e = .ok (s', ok) ∧ (ok = true ↔ g[e.cell] = 0 ∨ g[e.cell] = e.digit.get) ∧
      s'.toSudoku.2 = if ok then g.set e.cell e.digit.get else g := by
  rcases insert_spec h.inv.1 e with ⟨h1, s', e1, -⟩ | ⟨h1, h2, s', e1, -⟩
  · exact ⟨s', true, e1, by simpa using h1, by rw [C42_to_sudoku (.insertOk h e1)]; rfl⟩
  · exact ⟨s', false, e1, by simpa using ⟨h1, h2⟩, by rw [C42_to_sudoku (.insertErr h e1)]; rfl⟩

/-- **C45**: the state of a solver carries over to a solver made from it: they have the same solutions. -/
theorem C45_grid_state_round_trip (h : Reaches looked s g X) (hc : Consistent g X) (hf : 1000 ≤ fuel) :
    ∃ l, s.gridState fuel = .ok l ∧ ∃ hl : l.length = 81, ∃ s', Solver.fromGridState ⟨l.toArray, hl⟩ = .ok s' ∧
      s'.toSudoku.2 = g ∧ s'.gridState fuel = .ok l ∧
      ∃ X', Reaches false s' g X' ∧ ∀ t, SolutionOf g X' t ↔ SolutionOf g X t := by
  obtain ⟨l, e1, hl, h1⟩ := (C42_candidates_partial h hc hf).2
  obtain ⟨g1, g2, g3, g4⟩ := Faithful.carry (state := ⟨l.toArray, hl⟩) hc h1
  obtain ⟨s', e2, -⟩ := fromGridState_spec ⟨l.toArray, hl⟩
  have hr := Reaches.gridState e2
  rw [g1] at hr
  obtain ⟨l', e3, hl', h2⟩ := (C42_candidates_partial hr g2 hf).2
  have : l' = l := by
    apply List.ext_getElem (hl'.trans hl.symm)
    intro i hi hi'
    exact ((h1 ⟨i, by omega⟩).unique g3 (h2 ⟨i, by omega⟩)).symm
  subst this
  exact ⟨l', e1, hl, s', e2, C42_to_sudoku hr, e3, _, hr, g4⟩

/-- **C46**: the deductions can be read: `get` and the iterator never panic, they agree, each deduction belongs to one of
the strategies that were passed to `solve`, and there is nothing behind the last one. -/
theorem C46_read_deductions (h : Reaches looked s g X) (hc : looked = false ∨ Consistent g X) (hf : 1000 ≤ fuel)
    (sts : List Strategy) (r : Grid × Deductions) (hr : Returned fuel sts s r) :
    (∀ i < r.2.len, ∃ d, r.2.get i = .ok (some d) ∧ r.2.iter[i]? = some (.ok d) ∧ ∃ st ∈ sts, d.strategy = .ok st) ∧
    (∀ i, r.2.len ≤ i → r.2.get i = .ok none ∧ r.2.iter[i]? = none) ∧ (r.2.isEmpty = true ↔ r.2.len = 0) := by
  obtain ⟨s', h1, -, rfl, -⟩ := returned h hf hr
  obtain ⟨gh, hs⟩ := h.inv.2 hc
  have hx := solve_explains h.inv.1 hs h1
  refine ⟨fun i hi => ?_, fun i hi => ?_, by unfold Deductions.isEmpty; simp⟩
  · obtain ⟨d, e1, st, h2, e2⟩ := hx.reads i hi
    refine ⟨d, e1, ?_, st, usable_sub sts st h2, e2⟩
    have hi : i < s'.deductions.length := hi
    unfold Deductions.get at e1
    unfold Deductions.iter
    rw [List.getElem?_map]
    change (match s'.deductions[i]? with
      | none => Res.ok none
      | some d => do Res.ok (some (← withSlices d s'.eliminated))) = _ at e1
    show s'.deductions[i]?.map _ = _
    rw [List.getElem?_eq_getElem hi] at e1 ⊢
    change (withSlices s'.deductions[i] s'.eliminated >>= fun x => Res.ok (some x)) = _ at e1
    show some (withSlices s'.deductions[i] s'.eliminated) = _
    generalize withSlices s'.deductions[i] s'.eliminated = y at e1
    cases y with
    | ok y => cases e1; rfl
    | err => cases e1
    | panic => cases e1
    | timeout => cases e1
  · have hi : s'.deductions.length ≤ i := hi
    have h0 : s'.outcome.2.deductions[i]? = none := List.getElem?_eq_none hi
    unfold Deductions.get Deductions.iter
    rw [List.getElem?_map, h0]
    exact ⟨rfl, rfl⟩

/-- **C47**: if the sudoku has a solution, every deduction shows the pattern of one of the strategies passed to `solve`.
The pattern is seen on the candidates that are left by some of the clues, exclusions and earlier deductions. -/
theorem C47_explained (h : Reaches looked s g X) (hf : 1000 ≤ fuel) (sts : List Strategy) (r : Grid × Deductions)
    (hr : Returned fuel sts s r) (t : Grid) (ht : SolutionOf g X t) (i : Nat) (d : Deduction (List Candidate))
    (hd : r.2.get i = .ok (some d)) : ∃ st ∈ sts, d.strategy = .ok st ∧ ∃ E R : List Candidate,
      (∀ e ∈ E, g[e.cell] = e.digit.get ∨ ∃ j < i, ∃ d', r.2.get j = .ok (some d') ∧ Pattern.entry d' = some e) ∧
      (∀ e ∈ R, X e.cell e.digit ∨ ∃ j < i, ∃ d', r.2.get j = .ok (some d') ∧ e ∈ Pattern.removed d') ∧
      Pattern.Matches (Pattern.after E R) st d := by
  obtain ⟨s', h1, -, rfl, -⟩ := returned h hf hr
  obtain ⟨gh, hs⟩ := h.inv.2 (Or.inr (Consistent.of_solution ht))
  obtain ⟨st, h2, h3⟩ := (solve_explains h.inv.1 hs h1).shows ⟨t, ht⟩ i d hd
  exact ⟨st, usable_sub sts st h2, h3⟩

/-- **C48**: the deductions account for the grid that comes back: each of its digits was given or is the entry of a
deduction, and no given digit and no entry is missing. -/
theorem C48_accounted (h : Reaches looked s g X) (hc : looked = false ∨ Consistent g X) (hf : 1000 ≤ fuel)
    (sts : List Strategy) (r : Grid × Deductions) (hr : Returned fuel sts s r) :
    (∀ c : Fin 81, r.1[c] ≠ 0 → ∃ d : Digit, r.1[c] = d.get ∧
      (g[c] = d.get ∨ ∃ i x, r.2.get i = .ok (some x) ∧ Pattern.entry x = some ⟨c, d⟩)) ∧
    (∀ c : Fin 81, g[c] ≠ 0 → r.1[c] ≠ 0) ∧
    (∀ i x e, r.2.get i = .ok (some x) → Pattern.entry x = some e → r.1[e.cell] ≠ 0) := by
  obtain ⟨s', h1, -, rfl, -⟩ := returned h hf hr
  obtain ⟨gh, hs⟩ := h.inv.2 hc
  obtain ⟨hrun, -⟩ := h1.sem gh hs
  obtain ⟨c1, -, c3⟩ := solve_covers h.inv.1 hs h1
  refine ⟨fun c h0 => ?_, fun c h0 => ?_, fun i x e hx he => outcome_ne (c3 i x e hx he)⟩
  · obtain ⟨d, h2, h3⟩ := outcome_entry (hrun.gsrc h.inv.1.gsrc) h0
    exact ⟨d, h2, c1 _ h3⟩
  · obtain ⟨d, hd⟩ := h.inv.1.wf c h0
    obtain ⟨ext, hext⟩ := hrun.ded
    exact outcome_ne (e := ⟨c, d⟩) (hext ▸ List.mem_append_left _ ((h.inv.1.ded c d).mpr hd))

/-- **C48**: if the sudoku has a solution, the given digits and the entries of the deductions are the digits of the
grid that comes back. -/
theorem C48_entered (h : Reaches looked s g X) (hf : 1000 ≤ fuel) (sts : List Strategy) (r : Grid × Deductions)
    (hr : Returned fuel sts s r) (t : Grid) (ht : SolutionOf g X t) :
    (∀ c : Fin 81, g[c] ≠ 0 → r.1[c] = g[c]) ∧
    (∀ i x e, r.2.get i = .ok (some x) → Pattern.entry x = some e → r.1[e.cell] = e.digit.get) := by
  obtain ⟨-, h2, h3⟩ := C48_accounted h (Or.inr (Consistent.of_solution ht)) hf sts r hr
  obtain ⟨h4, h5⟩ := C39_sound h hf sts r hr t ht
  refine ⟨fun c h0 => ?_, fun i x e hx he => ?_⟩
  · rw [(h4 c).resolve_left (h2 c h0), ht.1.2 c h0]
  · rw [(h4 e.cell).resolve_left (h3 i x e hx he), (h5 i x hx).1 e he]

end Verif.Props
