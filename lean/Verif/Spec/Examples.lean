import Verif.Spec.Board

/-! Concrete boards used to show that the hypotheses of the property theorems can be met. -/
namespace Verif.Ex

/-- First puzzle of /repo/sudokus/Lines/easy_sudokus.txt. -/
def puzzle : Grid := #v[
  0,0,3,0,2,0,6,0,0, 9,0,0,3,0,5,0,0,1, 0,0,1,8,0,6,4,0,0,
  0,0,8,1,0,2,9,0,0, 7,0,0,0,0,0,0,0,8, 0,0,6,7,0,8,2,0,0,
  0,0,2,6,0,9,5,0,0, 8,0,0,2,0,3,0,0,9, 0,0,5,0,1,0,3,0,0]

/-- Its solution. -/
def solved : Grid := #v[
  4,8,3,9,2,1,6,5,7, 9,6,7,3,4,5,8,2,1, 2,5,1,8,7,6,4,9,3,
  5,4,8,1,3,2,9,7,6, 7,2,9,5,6,4,1,3,8, 1,3,6,7,9,8,2,4,5,
  3,7,2,6,8,9,5,1,4, 8,1,4,2,5,3,7,6,9, 6,9,5,4,1,7,3,8,2]

/-- The empty board. -/
def empty : Grid := Vector.replicate 81 0

/-- A board with two equal clues in a row. -/
def contradictory : Grid := (empty.set 0 5).set 1 5

/-- The solved board without four cells whose entries can be exchanged: two solutions. -/
def twoSolutions : Grid := (((solved.set 1 0).set 6 0).set 10 0).set 15 0

example : WellFormed puzzle := by decide +kernel
example : IsSolution puzzle solved := by decide +kernel
example : IsSolution empty solved := by decide +kernel
example : ∀ t, ¬ IsSolution contradictory t := fun t h => by
  have h0 := h.2 0 (by decide)
  have h1 := h.2 1 (by decide)
  exact h.1.2 0 1 (by decide) (by decide) (h0.trans (Eq.trans (by decide) h1.symm))

end Verif.Ex
