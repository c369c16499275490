import Verif.Spec.Board
import Mathlib.Logic.Relation

/-!
# Specification: the symmetries of the generated puzzles

The documentation of `Symmetry` (src/board/sudoku.rs lines 94-121) names mirrors and rotations of the board.
-/
namespace Verif

/-- The mirrors and rotations of a 9x9 board. -/
inductive Motion where
  /-- Mirror along the vertical axis through the centre: left and right are exchanged. -/
  | vertical
  /-- Mirror along the horizontal axis through the centre: top and bottom are exchanged. -/
  | horizontal
  /-- Mirror along the diagonal from the top left to the bottom right. -/
  | diagonal
  /-- Mirror along the diagonal from the bottom left to the top right. -/
  | antidiagonal
  /-- Rotation by 90 degrees. -/
  | quarter
  /-- Rotation by 180 degrees. -/
  | half
deriving DecidableEq, Repr

/-- Where a mirror or rotation moves the cell in row `r` and column `c`. -/
def Motion.move : Motion → Fin 9 × Fin 9 → Fin 9 × Fin 9
  | .vertical, (r, c) => (r, Fin.rev c)
  | .horizontal, (r, c) => (Fin.rev r, c)
  | .diagonal, (r, c) => (c, r)
  | .antidiagonal, (r, c) => (Fin.rev c, Fin.rev r)
  | .quarter, (r, c) => (c, Fin.rev r)
  | .half, (r, c) => (Fin.rev r, Fin.rev c)

/-- The same for cell numbers. -/
def Motion.cell (m : Motion) (x : Fin 81) : Fin 81 :=
  let p := m.move (⟨x.val / 9, by omega⟩, ⟨x.val % 9, by omega⟩)
  ⟨9 * p.1.val + p.2.val, by omega⟩

/-- The filled cells of `g` are mapped to filled cells by the motion. -/
def SymmetricUnder (m : Motion) (g : Grid) : Prop := ∀ x : Fin 81, g[x] ≠ 0 → g[m.cell x] ≠ 0

/-- `g` without the clues in the cells of `cells`. -/
def without (g : Grid) (cells : List (Fin 81)) : Grid :=
  Vector.ofFn (fun i => if i ∈ cells then 0 else g[i])

/-- The clues of `h` are clues of `g`. -/
def SubClues (h g : Grid) : Prop := ∀ x : Fin 81, h[x] = 0 ∨ h[x] = g[x]

end Verif
