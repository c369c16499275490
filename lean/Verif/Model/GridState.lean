import Verif.Model.Print

/-!
# Model of `Display for GridState` (`/repo/src/board/grid_state.rs`)

`GridState` is an array of 81 cell states.  The type is not exported; the crate uses it in a test.
-/
namespace Verif.GridState

open Verif Verif.Strat

/-- The `match` in src/board/grid_state.rs lines 28-31. -/
def cellWidth : CellState → UInt8
  | .digit _ => 1
  | .candidates cands => max 1 (Bitset.len cands)

/-- `column_widths[col]`, src/board/grid_state.rs lines 27-36.  (`max` of an iterator over nine numbers is not `None`.) -/
def columnWidth (state : Vector CellState 81) (col : Fin 9) : Res UInt8 := do
  let maxWidth := ((List.finRange 9).map (fun row => cellWidth state[Pos.fromCoords row col])).foldl max 0
  Res.assert (decide (1 ≤ maxWidth ∧ maxWidth ≤ 9))
  .ok maxWidth

/-- `stack_width`, src/board/grid_state.rs lines 39-45 (computed in `usize`). -/
def stackWidth (widths : Vector UInt8 9) (stack : Fin 3) : Nat :=
  ((List.finRange 3).map (fun col => (widths[stackCol stack col]).toNat)).sum + 6

/-- `print_horizontal_delimiter`, src/board/grid_state.rs lines 47-59: `{0:─<n$}` of the empty text is `─` repeated. -/
def printDelimiter (widths : Vector UInt8 9) (left middle : Char) (right : List Char) : List Char :=
  [left] ++ List.replicate (stackWidth widths 0) '─' ++ [middle] ++ List.replicate (stackWidth widths 1) '─' ++ [middle] ++
    List.replicate (stackWidth widths 2) '─' ++ right

/-- `print_minirow`, src/board/grid_state.rs lines 60-74. -/
def printMinirow (state : Vector CellState 81) (widths : Vector UInt8 9) (row : Fin 9) (stack : Fin 3) : Res (List Char) := do
  let cell (col : Fin 3) : Res (List Char) :=
    (state[Pos.fromCoords row (stackCol stack col)]).display (some (widths[stackCol stack col]).toNat)
  let c1 ← cell 0
  let c2 ← cell 1
  let c3 ← cell 2
  .ok ([' '] ++ c1 ++ [' ', ' '] ++ c2 ++ [' ', ' '] ++ c3 ++ [' ', '│'])

/-- `print_band`, src/board/grid_state.rs lines 76-85. -/
def printBand (state : Vector CellState 81) (widths : Vector UInt8 9) (band : Fin 3) : Res (List Char) := do
  let rows ← (List.finRange 3).mapM (fun row => do
    let parts ← (List.finRange 3).mapM (printMinirow state widths (stackCol band row))
    .ok (['│'] ++ parts.flatten ++ ['\n']))
  .ok rows.flatten

/-- `to_string`, `Display for GridState`, src/board/grid_state.rs lines 22-95. -/
def display (state : Vector CellState 81) : Res (List Char) := do
  let widths ← (List.finRange 9).mapM (columnWidth state)
  let widths : Vector UInt8 9 := Vector.ofFn (fun col => widths.getD col.val 0)
  let b0 ← printBand state widths 0
  let b1 ← printBand state widths 1
  let b2 ← printBand state widths 2
  .ok (printDelimiter widths '┌' '┬' ['┐', '\n'] ++ b0 ++ printDelimiter widths '├' '┼' ['┤', '\n'] ++ b1 ++
    printDelimiter widths '├' '┼' ['┤', '\n'] ++ b2 ++ printDelimiter widths '└' '┴' ['┘'])

end Verif.GridState
