import Verif.Model.Strategy

/-!
# Model of `find_avoidable_rectangles` (`/repo/src/strategy/strategies/avoidable_rectangles.rs`)

The file is marked as work in progress and the function is not called; the strategy `AvoidableRectangles` panics.
The callback `on_avoidable_rectangle` is modelled by the list of its arguments; `stop_after_first` is not used.
-/
namespace Verif.Strat

open Bitset

/-- What is collected about the corners, src/strategy/strategies/avoidable_rectangles.rs lines 38-41: the number of filled
corners, of clues among them, the digits, and the last free corner. -/
structure Corners where
  nSet : Nat
  nClues : Nat
  digits : DigitSet
  free : Fin 81

/-- The loop body in lines 43-52 of avoidable_rectangles.rs. -/
def Corners.look (filled clues : Grid) (x : Corners) (cell : Fin 81) : Res Corners :=
  if filled[cell] = 0 then .ok { x with free := cell }
  else do
    let digit ← digitOf filled[cell]
    .ok { x with
      digits := union x.digits (asSet 16 digit.val)
      nSet := x.nSet + 1
      nClues := if clues[cell] ≠ 0 then x.nClues + 1 else x.nClues }

/-- The body of the four loops, src/strategy/strategies/avoidable_rectangles.rs lines 24-74. -/
def rectangleAt (filled clues : Grid) (cp : Vector DigitSet 81) (row1 row2 col1 col2 : Fin 9) :
    Res (Option (LineSet × Candidate)) :=
  let rowsInSameChute := decide (row1.val / 3 = row2.val / 3)
  let colsInSameChute := decide (col1.val / 3 = col2.val / 3)
  if !(rowsInSameChute ^^ colsInSameChute) then .ok none
  else do
    let x ← [Pos.fromCoords row1 col1, Pos.fromCoords row1 col2, Pos.fromCoords row2 col1, Pos.fromCoords row2 col2].foldlM
      (Corners.look filled clues) ⟨0, 0, NONE 16, 0⟩
    if x.nSet = 3 ∧ x.nClues = 0 ∧ len x.digits = 2 then
      let candidates := cp[x.free]
      if overlaps candidates x.digits then do
        match ← uniqueItem 9 (inter candidates x.digits) with
        | .error () => .err
        | .ok none => .ok none
        | .ok (some digit) =>
          .ok (some (union (union (union (asSet 32 (Pos.rowLine row1).val) (asSet 32 (Pos.rowLine row2).val))
            (asSet 32 (Pos.colLine col1).val)) (asSet 32 (Pos.colLine col2).val), ⟨x.free, digit⟩))
      else .ok none
    else .ok none

/-- The pairs of two numbers below nine of the loops `for a in 0..8 { for b in a + 1..9 {`. -/
def linePairs : List (Fin 9 × Fin 9) :=
  ((List.finRange 9).take 8).flatMap (fun a => ((List.finRange 9).filter (fun b => a < b)).map (fun b => (a, b)))

/-- `find_avoidable_rectangles`, src/strategy/strategies/avoidable_rectangles.rs lines 5-80. -/
def findAvoidableRectangles (filled clues : Grid) (cp : Vector DigitSet 81) : Res (List (LineSet × Candidate)) := do
  let found ← (linePairs.flatMap (fun rows => linePairs.map (fun cols => (rows, cols)))).mapM
    (fun (rows, cols) => rectangleAt filled clues cp rows.1 rows.2 cols.1 cols.2)
  .ok (found.filterMap id)

end Verif.Strat
