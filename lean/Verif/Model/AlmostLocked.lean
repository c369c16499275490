import Verif.Model.Strategy

/-!
# Model of `/repo/src/strategy/strategies/almost_locked_sets.rs`

The file is marked as work in progress and its functions are not called.
-/
namespace Verif.Strat

open Bitset

/-- `AlmostLockedSets`, src/strategy/strategies/almost_locked_sets.rs line 70: lists for 8 sizes and 27 houses. -/
abbrev AlsTable := Vector (Vector (List (Pos.Cells × DigitSet)) 27) 8

/-- `almost_locked_sets[index][house].push(..)`, line 111: panics if the index is not below 8. -/
def pushAls (t : AlsTable) (index : Nat) (house : Fin 27) (x : Pos.Cells × DigitSet) : Res AlsTable :=
  if h : index < 8 then .ok (t.set index (t[index].set house (t[index][house] ++ [x]))) else .panic

/-- `_walk_combinations`, src/strategy/strategies/almost_locked_sets.rs lines 91-126, for the cells that the iterator still
returns. -/
def walkAls (cp : Vector DigitSet 81) (house : Fin 27) :
    List (Fin 81) → Pos.Cells → DigitSet → UInt8 → AlsTable → Res AlsTable
  | [], _, _, _, t => .ok t
  | cell :: cells, cellSet, digits, depth, t =>
    let newCellSet := union cellSet (asSet 128 cell.val)
    let candidates := cp[cell]
    if len candidates ≤ 1 then walkAls cp house cells cellSet digits depth t
    else do
      let newDigits := union digits candidates
      if len newCellSet ≠ depth + 1 then .panic
      else do
        let t ← (if len newDigits = len newCellSet + 1 then pushAls t ((len newCellSet).toNat - 1) house (newCellSet, newDigits)
          else .ok t)
        let t ← walkAls cp house cells newCellSet newDigits (depth + 1) t
        walkAls cp house cells cellSet digits depth t

/-- `_find_almost_locked_sets`, src/strategy/strategies/almost_locked_sets.rs lines 76-90. -/
def findAls (cp : Vector DigitSet 81) : Res AlsTable :=
  (List.finRange 27).foldlM (fun t house => do
    let cells ← items 81 (Pos.houseCells house)
    walkAls cp house cells (NONE 128) (NONE 16) 0 t) (Vector.replicate 8 (Vector.replicate 27 []))

/-- The closure `cells_of_digit`, lines 42-51. -/
def cellsOfDigit (cp : Vector DigitSet 81) (digit : Digit) (cells : Pos.Cells) : Res Pos.Cells := do
  let cells ← items 81 cells
  .ok (cells.foldl (fun found cell => if overlaps cp[cell] (asSet 16 digit.val) then union found (asSet 128 cell.val) else found)
    (NONE 128))

/-- The loops over two lists of almost locked sets, src/strategy/strategies/almost_locked_sets.rs lines 27-63.  They have no
effect: both branches of the test at the end continue with the next digit. -/
def compareAls (cp : Vector DigitSet 81) (sets1 sets2 : Vector (List (Pos.Cells × DigitSet)) 27) : Res Unit :=
  (List.finRange 27).forM (fun house1 => sets1[house1].forM (fun x1 =>
    ((List.finRange 27).filter (fun house2 => house2.val / 9 ≠ house1.val / 9)).forM (fun house2 => sets2[house2].forM (fun x2 => do
      let common := inter x1.2 x2.2
      if isEmpty common then .ok ()
      else do
        let digits ← items 9 common
        digits.forM (fun digit => do
          let cells1 ← cellsOfDigit cp digit x1.1
          let cells2 ← cellsOfDigit cp digit x2.1
          if overlaps cells1 cells2 then .ok () else .ok ())))))

/-- `find_almost_locked_sets`, src/strategy/strategies/almost_locked_sets.rs lines 5-68.  `on_subset` is not called. -/
def findAlmostLockedSets (cp : Vector DigitSet 81) : Res Unit := do
  let als ← findAls cp
  [2, 3, 4, 5, 6, 7, 8].forM (fun size1 => (List.range' 1 size1).forM (fun size2 =>
    if h1 : size1 < 8 then
      if h2 : size2 < 8 then compareAls cp als[size1] als[size2] else .panic
    else .panic))

end Verif.Strat
