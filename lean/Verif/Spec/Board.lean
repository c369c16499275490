import Mathlib.Data.Set.Card

/-!
# Specification: the 9x9 board and what a solution is

This file is independent of the model of the code.  It only fixes the data type of a board
(`[u8; 81]`, row by row) and says what rows, columns, blocks, clues and solutions are.
-/
namespace Verif

/-- The contents of a board: 81 bytes, row by row.  `0` is an empty cell.
Models `type SudokuArray = [u8; 81]` (src/board/sudoku.rs line 17). -/
abbrev Grid := Vector UInt8 81

/-- Row (0..8) of a cell. -/
def rowOf (c : Nat) : Nat := c / 9
/-- Column (0..8) of a cell. -/
def colOf (c : Nat) : Nat := c % 9
/-- Block (0..8) of a cell: blocks are 3x3 and numbered left to right, top to bottom. -/
def blockOf (c : Nat) : Nat := rowOf c / 3 * 3 + colOf c / 3

/-- Two cells share a row, a column or a block. -/
def SameHouse (c c' : Nat) : Prop :=
  rowOf c = rowOf c' ∨ colOf c = colOf c' ∨ blockOf c = blockOf c'

instance (c c' : Nat) : Decidable (SameHouse c c') := by unfold SameHouse; infer_instance

/-- The entries every `Sudoku` value of the library has: digits `1..9`, or `0` for empty. -/
def WellFormed (g : Grid) : Prop := ∀ c : Fin 81, g[c] ≤ 9

/-- A valid completed grid: every cell holds a digit `1..9` and
no digit occurs twice in a row, column or block. -/
def Solved (g : Grid) : Prop :=
  (∀ c : Fin 81, 1 ≤ g[c] ∧ g[c] ≤ 9) ∧
  ∀ c c' : Fin 81, c ≠ c' → SameHouse c c' → g[c] ≠ g[c']

/-- `t` agrees with every clue of `s`. -/
def Extends (s t : Grid) : Prop := ∀ c : Fin 81, s[c] ≠ 0 → t[c] = s[c]

/-- `t` is a solution of the sudoku `s`. -/
def IsSolution (s t : Grid) : Prop := Solved t ∧ Extends s t

/-- The set of solutions of `s`. -/
def solutionSet (s : Grid) : Set Grid := {t | IsSolution s t}

/-- The number of solutions of `s` (the set is finite, see `solutionSet_finite`). -/
noncomputable def numSolutions (s : Grid) : Nat := (solutionSet s).ncard

/-- `s` has one and only one solution. -/
def UniquelySolvable (s : Grid) : Prop := ∃ t, IsSolution s t ∧ ∀ t', IsSolution s t' → t' = t

/-- Number of clues (filled cells) of `s`. -/
def clueCount (s : Grid) : Nat := (List.finRange 81).countP (fun c => decide (s[c] ≠ 0))

instance (g : Grid) : Decidable (WellFormed g) := by unfold WellFormed; infer_instance
instance (g : Grid) : Decidable (Solved g) := by unfold Solved; infer_instance
instance (s t : Grid) : Decidable (Extends s t) := by unfold Extends; infer_instance
instance (s t : Grid) : Decidable (IsSolution s t) := by unfold IsSolution; infer_instance

end Verif
