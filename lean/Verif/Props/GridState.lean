import Verif.Proofs.GridState
import Verif.Props.Strategy

/-!
# Properties of printing a `GridState`
-/
namespace Verif.Props

open Verif Verif.Strat Verif.GridText

variable {looked : Bool} {s : Solver} {g : Grid} {X : Fin 81 → Digit → Prop} {fuel : Nat}

private theorem fits {state : Vector CellState 81} (h : ∀ c : Fin 81, OnlyDigits state[c]) (c : Fin 81) : state[c].Fits := by
  have := h c
  revert this
  generalize state[c] = st
  intro h
  cases st with
  | digit => trivial
  | candidates cands => exact fun i hi => h i (Bitset.mem_elems.mpr hi)

/-- **C74**: a grid state is printed as the same table as a strategy solver, but without the newline at the end. -/
theorem C74_table (state : Vector CellState 81) (h : ∀ c : Fin 81, OnlyDigits state[c]) :
    ∃ text, GridState.display state = .ok text ∧ text ++ ['\n'] = table (entries state) :=
  GridState.display_eq (fits h)

/-- **C74**: what is printed can be read back: the solver is the one for a grid state that shows the same digits in each
cell. -/
theorem C74_read_back (state : Vector CellState 81) (h : ∀ c : Fin 81, OnlyDigits state[c]) :
    ∃ text state', GridState.display state = .ok text ∧ (∀ c : Fin 81, shown state'[c] = shown state[c]) ∧
      Solver.fromGridStateStr text = Solver.fromGridState state' := by
  obtain ⟨text, h1, h2⟩ := C74_table state h
  refine ⟨text, state.map CellState.read, h1, fun c => by rw [getElem_read, shown_read], ?_⟩
  rw [← GridState.fromGridStateStr_newline, h2, fromGridStateStr_table (fits h)]

/-- **C74**: the `grid_state` of a solver without a visible contradiction can be printed and read back: the solutions are
the same. -/
theorem C74_round_trip (h : Reaches looked s g X) (hc : Consistent g X) (hf : 1000 ≤ fuel) :
    ∃ l, s.gridState fuel = .ok l ∧ ∃ hl : l.length = 81, ∃ text s', GridState.display ⟨l.toArray, hl⟩ = .ok text ∧
      Solver.fromGridStateStr text = .ok s' ∧
      ∃ g' X', Reaches false s' g' X' ∧ ∀ t, SolutionOf g' X' t ↔ SolutionOf g X t := by
  obtain ⟨l, e1, hl, h1⟩ := (C42_candidates_partial h hc hf).2
  obtain ⟨g1, -, -, g4⟩ := Faithful.carry (state := ⟨l.toArray, hl⟩) hc h1
  have only : ∀ c : Fin 81, OnlyDigits (⟨l.toArray, hl⟩ : Vector CellState 81)[c] := by
    intro c
    have := h1 c
    revert this
    show Faithful g X c l[c.val] → OnlyDigits l[c.val]
    generalize l[c.val] = st
    intro hf
    cases st with
    | digit => trivial
    | candidates cands =>
      intro i hi
      obtain ⟨d, rfl, -⟩ := (hf.2 i).mp hi
      exact d.isLt
  obtain ⟨text, state', k1, k2, k3⟩ := C74_read_back _ only
  obtain ⟨s', k4, -⟩ := fromGridState_spec state'
  refine ⟨l, e1, hl, text, s', k1, k3.trans k4, _, _, .gridState k4, fun t => ?_⟩
  rw [← g4 t, ← g1, GridState.solution_iff_shown, g1, ← g1, GridState.solution_iff_shown]
  simp only [k2]

/-! ## Cases that meet the hypotheses -/

set_option maxRecDepth 100000

/-- C74: a grid state with digits and candidates. -/
def someState : Vector CellState 81 :=
  Vector.ofFn (fun i : Fin 81 => if i.val % 2 = 0 then .digit 3 else .candidates (if i = 1 then 0#16 else 0b000001011#16))

example : ∀ c : Fin 81, OnlyDigits someState[c] := by
  have h : ∀ i < 16, i ∈ elems (0b000001011#16) → i < 9 := by
    intro i hi
    rw [Bitset.mem_elems]
    revert i
    decide
  intro c
  have e : someState[c] = if c.val % 2 = 0 then .digit 3 else .candidates (if c = 1 then 0#16 else 0b000001011#16) := by
    show (Vector.ofFn _)[c.val] = _
    rw [Vector.getElem_ofFn]
  rw [e]
  split
  · trivial
  · split
    · intro i hi
      rw [Bitset.mem_elems] at hi
      simp at hi
    · intro i hi
      exact h i (BitVec.lt_of_getLsbD (Bitset.mem_elems.mp hi)) hi

/-- C74: a sudoku with a solution is consistent. -/
example : ∃ s, Reaches false s Ex.puzzle (fun _ _ => False) ∧ Consistent Ex.puzzle (fun _ _ => False) := by
  have hg : WellFormed Ex.puzzle := by decide +kernel
  obtain ⟨s, hs⟩ := C41_constructors.1 Ex.puzzle hg
  exact ⟨s, .sudoku hg hs, Consistent.of_solution (t := Ex.solved) ⟨by decide +kernel, fun _ _ h => h.elim⟩⟩

end Verif.Props
