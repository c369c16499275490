import Verif.Model.Strategy
import Verif.Spec.Sets
import Verif.Spec.Board

/-!
# Specification: using a strategy solver before it is asked to solve

`Reaches looked s g X`: the solver `s` came from a constructor by calls of the other public methods.  Then `g` holds the
digits it was given (clues and inserted candidates), `X c d` says that the digit `d` was excluded from the cell `c` by
the grid state it was built from, and `looked` says whether `cell_state` was called.
`fuel` only bounds the recursion of the model.  (`grid_state` and `is_solved` take `&self`, and a clone is the same value.)
-/
namespace Verif.Strat

open Verif

/-- The digits of a grid state. -/
def digitsOf (state : Vector CellState 81) : Grid :=
  state.map (fun x => match x with
    | .digit d => d.get
    | .candidates _ => 0)

/-- A digit that a grid state does not allow in an unsolved cell. -/
def excludedBy (state : Vector CellState 81) (c : Fin 81) (d : Digit) : Prop :=
  match state[c] with
  | .digit _ => False
  | .candidates cands => d.val ∉ elems cands

inductive Reaches : Bool → Solver → Grid → (Fin 81 → Digit → Prop) → Prop
  | sudoku {g : Grid} {s : Solver} : WellFormed g → Solver.fromSudoku g = .ok s → Reaches false s g (fun _ _ => False)
  | gridState {state : Vector CellState 81} {s : Solver} : Solver.fromGridState state = .ok s →
      Reaches false s (digitsOf state) (excludedBy state)
  | toSudoku {looked : Bool} {s : Solver} {g : Grid} {X : Fin 81 → Digit → Prop} : Reaches looked s g X →
      Reaches looked s.toSudoku.1 g X
  | cellState {looked : Bool} {s s' : Solver} {g : Grid} {X : Fin 81 → Digit → Prop} {fuel : Nat} {c : Fin 81}
      {r : CellState} : Reaches looked s g X → 1000 ≤ fuel → s.cellState fuel c = .ok (s', r) → Reaches true s' g X
  | insertOk {looked : Bool} {s s' : Solver} {g : Grid} {X : Fin 81 → Digit → Prop} {e : Candidate} :
      Reaches looked s g X → s.insertCandidate e = .ok (s', true) → Reaches looked s' (g.set e.cell e.digit.get) X
  | insertErr {looked : Bool} {s s' : Solver} {g : Grid} {X : Fin 81 → Digit → Prop} {e : Candidate} :
      Reaches looked s g X → s.insertCandidate e = .ok (s', false) → Reaches looked s' g X

/-- `t` is a solution without the excluded digits. -/
def SolutionOf (g : Grid) (X : Fin 81 → Digit → Prop) (t : Grid) : Prop :=
  IsSolution g t ∧ ∀ c d, X c d → t[c] ≠ d.get

/-- `d` can still be entered in the empty cell `c`. -/
def Possible (g : Grid) (X : Fin 81 → Digit → Prop) (c : Fin 81) (d : Digit) : Prop :=
  g[c] = 0 ∧ ¬ X c d ∧ ∀ c' : Fin 81, c' ≠ c → SameHouse c' c → g[c'] ≠ d.get

/-- No contradiction is directly visible: no digit is repeated in a row, column or block, no excluded digit was entered,
and every empty cell has a possible digit. -/
structure Consistent (g : Grid) (X : Fin 81 → Digit → Prop) : Prop where
  distinct : ∀ c c' : Fin 81, c ≠ c' → SameHouse c c' → g[c] ≠ 0 → g[c] ≠ g[c']
  allowed : ∀ (c : Fin 81) (d : Digit), g[c] = d.get → ¬ X c d
  open_ : ∀ c : Fin 81, g[c] = 0 → ∃ d, Possible g X c d

/-- What the state of a cell should be: its digit, or its possible digits. -/
def Faithful (g : Grid) (X : Fin 81 → Digit → Prop) (c : Fin 81) : CellState → Prop
  | .digit d => g[c] = d.get
  | .candidates cands => g[c] = 0 ∧ ∀ i, i ∈ elems cands ↔ ∃ d : Digit, d.val = i ∧ Possible g X c d

/-- What the state of a cell is in any case: its digit, or a set of digits with at least the possible ones. -/
def Covering (g : Grid) (X : Fin 81 → Digit → Prop) (c : Fin 81) : CellState → Prop
  | .digit d => g[c] = d.get
  | .candidates cands => g[c] = 0 ∧ ∀ d : Digit, Possible g X c d → d.val ∈ elems cands

/-- `solve` returned this grid with these deductions, as `Ok` or as `Err`. -/
def Returned (fuel : Nat) (sts : List Strategy) (s : Solver) (r : Grid × Deductions) : Prop :=
  s.solve fuel sts = .ok (.ok r) ∨ s.solve fuel sts = .ok (.error r)

end Verif.Strat
