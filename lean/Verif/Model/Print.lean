import Verif.Model.Strategy
import Verif.Model.Text

/-!
# Model of printing candidates: `Display` of `CellState` (`/repo/src/board/cell_state.rs`) and of `StrategySolver`
(`/repo/src/strategy/solver.rs` lines 1114-1149 and 1296-1416), and of reading such a text
(`from_grid_state_str`, lines 132-159)

A `Formatter` is the list of characters written to it; writing to a string does not fail.
-/
namespace Verif.Strat

open Verif

/-- `{:<width$}`: fills up with spaces on the right. -/
def padRight (width : Nat) (l : List Char) : List Char := l ++ List.replicate (width - l.length) ' '

/-- `{}` of a `u8`. -/
def showU8 (n : UInt8) : List Char := Nat.toDigits 10 n.toNat

/-- The digits of a set or an underscore, src/board/cell_state.rs lines 18-24 and src/strategy/solver.rs lines
1355-1361. -/
def digitsText (cands : DigitSet) : Res (List Char) :=
  if Bitset.isEmpty cands then .ok ['_']
  else do .ok ((← Bitset.items 9 cands).flatMap (fun (d : Digit) => showU8 d.get))

/-- `cell_state.to_string()` or `format!("{:width$}", cell_state)`, src/board/cell_state.rs lines 12-34; `width` is
`f.width()`.  (`saturating_sub` is subtraction of natural numbers.) -/
def CellState.display (width : Option Nat) : CellState → Res (List Char)
  | .digit d => .ok (padRight (width.getD 0) (showU8 d.get))
  | .candidates cands => do
    let text ← digitsText cands
    let requiredPadding := width.getD 0 - (max (Bitset.len cands) 1).toNat
    .ok (text ++ if requiredPadding > 0 then padRight requiredPadding [' '] else [])

/-! ## Printing a grid state -/

/-- The `match` in src/strategy/solver.rs lines 1320-1323. -/
def printedLen : CellState → UInt8
  | .digit _ => 1
  | .candidates digits => max (Bitset.len digits) 1

/-- `column_widths`, src/strategy/solver.rs lines 1316-1328. -/
def columnWidth (grid : Vector CellState 81) (col : Fin 9) : UInt8 :=
  ((List.finRange 9).map (fun row => printedLen grid[Pos.fromCoords row col])).foldl max 0

/-- `a + b` of `u8`: panics on overflow. -/
def addU8 (a b : UInt8) : Res UInt8 := do
  Res.assert (decide (a.toNat + b.toNat < 256))
  .ok (a + b)

/-- `a - b` of `u8`: panics on overflow. -/
def subU8 (a b : UInt8) : Res UInt8 := do
  Res.assert (decide (b ≤ a))
  .ok (a - b)

/-- The column `3 * stack + col`. -/
def stackCol (stack col : Fin 3) : Fin 9 := ⟨stack.val * 3 + col.val, by omega⟩

/-- `column_widths[stack * 3..][..3].iter().sum::<u8>() as usize`, src/strategy/solver.rs line 1332. -/
def stackLength (grid : Vector CellState 81) (stack : Fin 3) : Res Nat := do
  let n ← (List.finRange 3).foldlM (fun n col => addU8 n (columnWidth grid (stackCol stack col))) 0
  .ok n.toNat

/-- `_print_separator`, src/strategy/solver.rs lines 1397-1416. -/
def printSeparator (left middle right horizontal : Char) (lengths : Nat × Nat × Nat) : List Char :=
  [left] ++ List.replicate (lengths.1 + 6) horizontal ++ [middle] ++ List.replicate (lengths.2.1 + 6) horizontal ++
    [middle] ++ List.replicate (lengths.2.2 + 6) horizontal ++ [right] ++ ['\n']

/-- What is printed for a cell, src/strategy/solver.rs lines 1349-1371. -/
def printCell (width : UInt8) : CellState → Res (List Char)
  | .digit d => .ok ([' '] ++ padRight width.toNat (showU8 d.get) ++ [' '])
  | .candidates cands => do
    let text ← digitsText cands
    let n ← subU8 (← addU8 1 width) (max (Bitset.len cands) 1)
    .ok ([' '] ++ text ++ padRight n.toNat [' '])

/-- A row, src/strategy/solver.rs lines 1343-1376. -/
def printRow (grid : Vector CellState 81) (vertical : Char) (row : Fin 9) : Res (List Char) := do
  let parts ← (List.finRange 3).mapM (fun stack => do
    let cells ← (List.finRange 3).mapM (fun col =>
      printCell (columnWidth grid (stackCol stack col)) grid[Pos.fromCoords row (stackCol stack col)])
    .ok (cells.flatten ++ [vertical]))
  .ok ([vertical] ++ parts.flatten ++ ['\n'])

/-- `print_grid_state`, src/strategy/solver.rs lines 1296-1395, with the characters of lines 1123-1133. -/
def printGridState (grid : Vector CellState 81) : Res (List Char) := do
  let lengths := (← stackLength grid 0, ← stackLength grid 1, ← stackLength grid 2)
  let bands ← (List.finRange 3).mapM (fun band => do
    let rows ← (List.finRange 3).mapM (fun row => printRow grid '│' (stackCol band row))
    .ok (rows.flatten ++ if band ≠ 2 then printSeparator '├' '┼' '┤' '─' lengths else []))
  .ok (printSeparator '┌' '┬' '┐' '─' lengths ++ bands.flatten ++ printSeparator '└' '┴' '┘' '─' lengths)

/-! ## Printing a solver -/

/-- `_batch_remove_conflicts_no_check`, src/strategy/solver.rs lines 554-570. -/
def Solver.batchRemoveNoCheck (s : Solver) : Solver :=
  (List.finRange 81).foldl (fun (s : Solver) (cell : Fin 81) =>
    if Bitset.isEmpty s.cp[cell] then s
    else { s with cp := s.cp.set cell (Bitset.without s.cp[cell] (s.housesMask cell)) }) s

/-- `update_for_grid_state_str`, src/strategy/solver.rs lines 539-550. -/
def Solver.updateForGridStateStr (fuel : Nat) (s : Solver) : Res Solver := do
  let s ← s.trySolve fuel [.nakedSingles]
  .ok s.batchRemoveNoCheck

/-- `to_string`, `Display for StrategySolver`, src/strategy/solver.rs lines 1114-1149 (on a clone). -/
def Solver.display (fuel : Nat) (s : Solver) : Res (List Char) := do
  let s ← s.updateForGridStateStr fuel
  let states ← s.gridState fuel
  if h : states.length = 81 then printGridState ⟨states.toArray, h⟩ else .panic

/-! ## Reading the text -/

/-- `str::split_whitespace`: the longest parts without whitespace.  `acc` is the current part reversed. -/
def splitWhitespaceAux (acc : List Char) : List Char → List (List Char)
  | [] => if acc = [] then [] else [acc.reverse]
  | c :: rest =>
    if Text.isWhitespace c then (if acc = [] then [] else [acc.reverse]) ++ splitWhitespaceAux [] rest
    else splitWhitespaceAux (c :: acc) rest

/-- `str::split_whitespace`. -/
def splitWhitespace (s : List Char) : List (List Char) := splitWhitespaceAux [] s

/-- The number written by decimal digits, `none` if there is another character. -/
def decimal (l : List Char) : Option Nat :=
  l.foldl (fun acc c => acc.bind fun n => if '0' ≤ c ∧ c ≤ '9' then some (10 * n + (c.toNat - '0'.toNat)) else none)
    (some 0)

/-- The text without a leading `'+'`. -/
def stripPlus : List Char → List Char
  | '+' :: rest => rest
  | s => s

/-- `s.parse::<u32>().is_ok()`: an optional `'+'`, then at least one decimal digit, and the number is in range. -/
def parsesAsU32 (s : List Char) : Bool :=
  !(stripPlus s).isEmpty && match decimal (stripPlus s) with
    | some n => decide (n < 4294967296)
    | none => false

/-- The state that a word stands for, src/strategy/solver.rs lines 144-154. -/
def parseEntry (entry : List Char) : Res CellState := do
  let nums ← (Sudoku.asBytes entry).mapM (fun byte => subU8 byte '0'.toUInt8)
  let candidates := (nums.filterMap Pos.digitNewChecked).foldl
    (fun (set : DigitSet) digit => Bitset.union set (Bitset.asSet 16 (Pos.digitIndex digit))) (Bitset.NONE 16)
  match ← Bitset.uniqueItem 9 candidates with
  | .ok (some digit) => .ok (.digit digit)
  | _ => .ok (.candidates candidates)

/-- `from_grid_state_str`, src/strategy/solver.rs lines 136-159.  Missing entries leave the cell without candidates,
further ones are not looked at (`zip`). -/
def Solver.fromGridStateStr (text : List Char) : Res Solver := do
  let entries := ((Text.lines text).flatMap splitWhitespace).filter (fun entry => entry = ['_'] || parsesAsU32 entry)
  let states ← (entries.take 81).mapM parseEntry
  Solver.fromGridState (Vector.ofFn (fun cell => states[cell.val]?.getD (.candidates (Bitset.NONE 16))))

end Verif.Strat
