import Verif.Model.Sudoku

/-!
# Model of puzzle generation: `/repo/src/board/sudoku.rs` lines 93-267

The random number generator is only used to shuffle the order of the cells (`cell_order.shuffle(rng)`, line 246).
`shuffle` of the crate `rand` permutes the slice in place.  The model takes the shuffled order as an argument;
the theorems hold for every permutation of the 81 cells.
-/
namespace Verif.Sudoku

open Verif

/-- `Symmetry`, src/board/sudoku.rs lines 101-121. -/
inductive Symmetry where
  | verticalMirror
  | horizontalMirror
  | verticalAndHorizontalMirror
  | diagonalMirror
  | antidiagonalMirror
  | bidiagonalMirror
  | quarterRotation
  | halfRotation
  | dihedral
  | none
deriving DecidableEq, Repr

/-- The closure `mirr`, src/board/sudoku.rs line 128.  (`8 - line` on `usize`; lines are at most 8.) -/
def mirr (line : Nat) : Nat := 8 - line

/-- The closure `cell_at`, src/board/sudoku.rs line 129. -/
def cellAtRC (row col : Nat) : Nat := row * 9 + col

/-- `corresponding_cells`, src/board/sudoku.rs lines 125-166. -/
def correspondingCells (s : Symmetry) (cell : Nat) : List Nat :=
  let row := cell / 9
  let col := cell % 9
  match s with
  | .none => [cell]
  | .verticalMirror => [cell, cellAtRC row (mirr col)]
  | .horizontalMirror => [cell, cellAtRC (mirr row) col]
  | .verticalAndHorizontalMirror =>
    [cell, cellAtRC (mirr row) col, cellAtRC row (mirr col), cellAtRC (mirr row) (mirr col)]
  | .diagonalMirror => [cell, cellAtRC col row]
  | .antidiagonalMirror => [cell, cellAtRC (mirr col) (mirr row)]
  | .bidiagonalMirror =>
    [cell, cellAtRC col row, cellAtRC (mirr col) (mirr row), cellAtRC (mirr row) (mirr col)]
  | .quarterRotation =>
    [cell, cellAtRC (mirr row) (mirr col), cellAtRC col (mirr row), cellAtRC (mirr col) row]
  | .halfRotation => [cell, cellAtRC (mirr row) (mirr col)]
  | .dihedral =>
    [cell, cellAtRC row (mirr col), cellAtRC (mirr row) col, cellAtRC (mirr row) (mirr col),
     cellAtRC col row, cellAtRC col (mirr row), cellAtRC (mirr col) row, cellAtRC (mirr col) (mirr row)]

/-- The loop `for cell in cells`, src/board/sudoku.rs lines 257-260; both arrays have 81 entries. -/
def clearCells : List Nat → Vector Bool 81 → Grid → Res (Vector Bool 81 × Grid)
  | [], visited, tmp => .ok (visited, tmp)
  | cell :: cells, visited, tmp =>
    if h : cell < 81 then clearCells cells (visited.set cell true) (tmp.set cell 0) else .panic

/-- The loop `for &cell in &cell_order[..]`, src/board/sudoku.rs lines 251-264. -/
def generateLoop (fuel : Nat) (symmetry : Symmetry) : List Nat → Vector Bool 81 → Grid → Res Grid
  | [], _, sudoku => .ok sudoku
  | cell :: order, visited, sudoku =>
    let cells := correspondingCells symmetry cell
    match cells with
    | [] => .panic
    | c0 :: _ =>
      if h : c0 < 81 then
        if visited[c0] = true then generateLoop fuel symmetry order visited sudoku
        else do
          let (visited, tmp) ← clearCells cells visited sudoku
          if (← isUniquelySolvable fuel tmp) = true then generateLoop fuel symmetry order visited tmp
          else generateLoop fuel symmetry order visited sudoku
      else .panic

/-- `generate_with_symmetry_and_rng_from`, src/board/sudoku.rs lines 227-267, and, with the thread's random number
generator, `generate_with_symmetry_from`, lines 213-215; `order` is `cell_order` after shuffling. -/
def generateWithSymmetryFrom (fuel : Nat) (sudoku : Grid) (symmetry : Symmetry) (order : List Nat) :
    Res Grid :=
  generateLoop fuel symmetry order (Vector.replicate 81 false) sudoku

/-- `generate_from`, src/board/sudoku.rs lines 200-202. -/
def generateFrom (fuel : Nat) (sudoku : Grid) (order : List Nat) : Res Grid :=
  generateWithSymmetryFrom fuel sudoku .none order

end Verif.Sudoku
