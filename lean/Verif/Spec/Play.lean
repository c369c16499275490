import Verif.Spec.History

/-!
# Running concrete histories of a strategy solver

Used by the examples only: `play` runs a list of calls and `play_reaches` says that this is a history.
-/
namespace Verif.Strat

open Verif

/-- A call of a public method before `solve`. -/
inductive Call where
  | toSudoku
  | look (c : Fin 81)
  | insert (e : Candidate)

/-- Make the calls; the grid holds the clues and inserted digits, the Boolean says whether `cell_state` was called. -/
def play : List Call → Bool × Solver × Grid → Option (Bool × Solver × Grid)
  | [], x => some x
  | .toSudoku :: l, (b, s, g) => play l (b, s.toSudoku.1, g)
  | .look c :: l, (_, s, g) =>
    match s.cellState 1000 c with
    | .ok (s', _) => play l (true, s', g)
    | _ => none
  | .insert e :: l, (b, s, g) =>
    match s.insertCandidate e with
    | .ok (s', ok) => play l (b, s', if ok then g.set e.cell e.digit.get else g)
    | _ => none

theorem play_reaches {X : Fin 81 → Digit → Prop} : ∀ (l : List Call) {x y : Bool × Solver × Grid},
    Reaches x.1 x.2.1 x.2.2 X → play l x = some y → Reaches y.1 y.2.1 y.2.2 X := by
  intro l
  induction l with
  | nil => intro x y h e; cases e; exact h
  | cons c l ih =>
    intro ⟨b, s, g⟩ y h e
    cases c with
    | toSudoku => exact ih (x := (b, s.toSudoku.1, g)) (.toSudoku h) e
    | look c =>
      unfold play at e
      cases h1 : s.cellState 1000 c with
      | ok p =>
        obtain ⟨s', r⟩ := p
        rw [h1] at e
        exact ih (x := (true, s', g)) (.cellState h (Nat.le_refl _) h1) e
      | err => rw [h1] at e; cases e
      | panic => rw [h1] at e; cases e
      | timeout => rw [h1] at e; cases e
    | insert c =>
      unfold play at e
      cases h1 : s.insertCandidate c with
      | ok p =>
        obtain ⟨s', ok⟩ := p
        rw [h1] at e
        dsimp only at e
        cases ok with
        | true => exact ih (x := (b, s', g.set c.cell c.digit.get)) (.insertOk h h1) e
        | false => exact ih (x := (b, s', g)) (.insertErr h h1) e
      | err => rw [h1] at e; cases e
      | panic => rw [h1] at e; cases e
      | timeout => rw [h1] at e; cases e

/-- Make a solver from a sudoku and make calls. -/
def start (g : Grid) (l : List Call) : Option (Bool × Solver × Grid) :=
  match Solver.fromSudoku g with
  | .ok s => play l (false, s, g)
  | _ => none

theorem start_reaches {g : Grid} (hg : WellFormed g) {l : List Call} {y : Bool × Solver × Grid} (h : start g l = some y) :
    Reaches y.1 y.2.1 y.2.2 (fun _ _ => False) := by
  unfold start at h
  cases h1 : Solver.fromSudoku g with
  | ok s => rw [h1] at h; exact play_reaches l (x := (false, s, g)) (.sudoku hg h1) h
  | err => rw [h1] at h; cases h
  | panic => rw [h1] at h; cases h
  | timeout => rw [h1] at h; cases h

/-- Make a solver from a grid state and make calls. -/
def startState (state : Vector CellState 81) (l : List Call) : Option (Bool × Solver × Grid) :=
  match Solver.fromGridState state with
  | .ok s => play l (false, s, digitsOf state)
  | _ => none

theorem startState_reaches {state : Vector CellState 81} {l : List Call} {y : Bool × Solver × Grid}
    (h : startState state l = some y) : Reaches y.1 y.2.1 y.2.2 (excludedBy state) := by
  unfold startState at h
  cases h1 : Solver.fromGridState state with
  | ok s => rw [h1] at h; exact play_reaches l (x := (false, s, digitsOf state)) (.gridState h1) h
  | err => rw [h1] at h; cases h
  | panic => rw [h1] at h; cases h
  | timeout => rw [h1] at h; cases h

/-- The result of `solve`: `Ok` or `Err`, with the grid and the deductions. -/
def result (sts : List Strategy) (s : Solver) : Option (Bool × Grid × Deductions) :=
  match s.solve 1000 sts with
  | .ok (.ok r) => some (true, r)
  | .ok (.error r) => some (false, r)
  | _ => none

theorem result_ok {sts : List Strategy} {s : Solver} {r : Grid × Deductions} (h : result sts s = some (true, r)) :
    s.solve 1000 sts = .ok (.ok r) := by
  unfold result at h
  cases h1 : s.solve 1000 sts with
  | ok p =>
    rw [h1] at h
    cases p with
    | ok p => cases h; rfl
    | error p => cases h
  | err => rw [h1] at h; cases h
  | panic => rw [h1] at h; cases h
  | timeout => rw [h1] at h; cases h

theorem result_err {sts : List Strategy} {s : Solver} {r : Grid × Deductions} (h : result sts s = some (false, r)) :
    s.solve 1000 sts = .ok (.error r) := by
  unfold result at h
  cases h1 : s.solve 1000 sts with
  | ok p =>
    rw [h1] at h
    cases p with
    | ok p => cases h
    | error p => cases h; rfl
  | err => rw [h1] at h; cases h
  | panic => rw [h1] at h; cases h
  | timeout => rw [h1] at h; cases h

/-- A decidable claim about a computed value that exists. -/
def claims {α : Type} (x : Option α) (p : α → Bool) : Bool :=
  match x with
  | some a => p a
  | none => false

theorem claims_spec {α : Type} {x : Option α} {p : α → Bool} (h : claims x p = true) : ∃ a, x = some a ∧ p a = true := by
  cases x with
  | some a => exact ⟨a, rfl, h⟩
  | none => cases h

end Verif.Strat
