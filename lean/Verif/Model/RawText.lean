import Verif.Model.Text
import Verif.Model.RawPositions

/-!
# Model of the readers in `/repo/src/board/sudoku.rs` on machine integers

`Verif.Model.Text` counts cells, rows and columns with natural numbers.  Here the counters that are `u8` in the code are
`UInt8`, with the checked operations of `Verif.Model.RawPositions`: `debug` says whether overflow checks are compiled in.
Counters of type `usize` count characters or lines of a text in memory, which is shorter than `isize::MAX` bytes; they
stay natural numbers.  A `u8` in an error is given by its value.
-/
namespace Verif.RawText

open Verif Text Sudoku Raw

/-- The loop of `from_str_line`, src/board/sudoku.rs lines 322-337. -/
def lineLoop (debug : Bool) (s : List Char) : List UInt8 → UInt8 → Grid → Res (Except LineParseError (UInt8 × Grid))
  | [], i, grid => .ok (.ok (i, grid))
  | ch :: rest, i, grid =>
    if h : i.toNat < 81 then
      if ch = '_'.toUInt8 ∨ ch = '.'.toUInt8 then do
        lineLoop debug s rest (← add debug i 1) (grid.set i.toNat 0)
      else if '0'.toUInt8 ≤ ch ∧ ch ≤ '9'.toUInt8 then do
        let digit ← sub debug ch '0'.toUInt8
        lineLoop debug s rest (← add debug i 1) (grid.set i.toNat digit)
      else if ch = ' '.toUInt8 ∨ ch = '\t'.toUInt8 then .ok (.error (.notEnoughCells i.toNat))
      else do
        match ← sliceFrom s i.toNat with
        | c :: _ => .ok (.error (.invalidEntry i.toNat c))
        | [] => .panic
    else .ok (.ok (i, grid))

/-- `from_str_line`, src/board/sudoku.rs lines 314-357. -/
def fromStrLine (debug : Bool) (s : List Char) : Res (Except LineParseError Grid) := do
  match fastPath (asBytes s) with
  | some g => .ok (.ok g)
  | none =>
    let chars := asBytes s
    match ← lineLoop debug s chars 0 (Vector.replicate 81 0) with
    | .error e => .ok (.error e)
    | .ok (i, grid) =>
      if i ≠ 81 then .ok (.error (.notEnoughCells i.toNat))
      else
        match chars[81]? with
        | none => .ok (.ok grid)
        | some ch =>
          if ch = '\t'.toUInt8 ∨ ch = ' '.toUInt8 ∨ ch = '\r'.toUInt8 ∨ ch = '\n'.toUInt8 ∨
              ch = ';'.toUInt8 ∨ ch = ','.toUInt8 then .ok (.ok grid)
          else if ch = '_'.toUInt8 ∨ ch = '.'.toUInt8 ∨ ('0'.toUInt8 ≤ ch ∧ ch ≤ '9'.toUInt8) then
            .ok (.error .tooManyCells)
          else .ok (.error .missingCommentDelimiter)

/-- The loop over the characters of a line in `from_str_block`, src/board/sudoku.rs lines 473-515. -/
def rowLoop (debug : Bool) (nLine : UInt8) : List Char → Nat → UInt8 → Format → Grid →
    Res (Except BlockParseError (UInt8 × Format × Grid))
  | [], _, nCol, fmt, grid => .ok (.ok (nCol, fmt, grid))
  | ch :: rest, strCol, nCol, fmt, grid =>
    if nCol = 9 then
      if ch = ' ' ∨ ch = '\t' then .ok (.ok (nCol, fmt, grid))
      else if ('1' ≤ ch ∧ ch ≤ '9') ∨ ch = '_' ∨ ch = '.' ∨ ch = '0' then
        .ok (.error (.invalidLineLength nLine.toNat))
      else .ok (.error (.missingCommentDelimiter nLine.toNat))
    else
      let fmt := if (strCol = 3 ∨ strCol = 7) ∧ fmt = .unknown then
          (if ch = '|' then .delimited else .bare) else fmt
      if (strCol = 3 ∨ strCol = 7) ∧ (fmt = .delimited ∨ fmt = .delimitedPlus) then
        if ch = '|' then rowLoop debug nLine rest (strCol + 1) nCol fmt grid
        else .ok (.error .incorrectFieldDelimiter)
      else do
        let cell ← add debug (← mul debug nLine 9) nCol
        if ch = '_' ∨ ch = '.' then
          if h : cell.toNat < 81 then do
            rowLoop debug nLine rest (strCol + 1) (← add debug nCol 1) fmt (grid.set cell.toNat 0)
          else .panic
        else if '0' ≤ ch ∧ ch ≤ '9' then
          if h : cell.toNat < 81 then do
            let digit ← sub debug (UInt8.ofNat ch.toNat) (UInt8.ofNat '0'.toNat)
            rowLoop debug nLine rest (strCol + 1) (← add debug nCol 1) fmt (grid.set cell.toNat digit)
          else .panic
        else .ok (.error (.invalidEntry cell.toNat ch))

/-- The loop over the lines in `from_str_block`, src/board/sudoku.rs lines 441-521, and what follows it,
lines 522-525. -/
def blockLoop (debug : Bool) : List (List Char) → Nat → UInt8 → Format → Grid → Res (Except BlockParseError Grid)
  | [], _, nLine, _, grid =>
    if nLine ≠ 9 then do .ok (.error (.notEnoughRows (← add debug nLine 1).toNat)) else .ok (.ok grid)
  | line :: rest, nLineStr, nLine, fmt, grid =>
    if nLine = 9 then
      if line.all isWhitespace then .ok (.ok grid) else .ok (.error .tooManyRows)
    else
      match sepCheck nLineStr line fmt with
      | .error e => .ok (.error e)
      | .ok (fmt, true) => blockLoop debug rest (nLineStr + 1) nLine fmt grid
      | .ok (fmt, false) => do
        match ← rowLoop debug nLine line 0 0 fmt grid with
        | .error e => .ok (.error e)
        | .ok (nCol, fmt, grid) =>
          if nCol ≠ 9 then .ok (.error (.invalidLineLength nLine.toNat))
          else do blockLoop debug rest (nLineStr + 1) (← add debug nLine 1) fmt grid

/-- `from_str_block`, src/board/sudoku.rs lines 428-526. -/
def fromStrBlock (debug : Bool) (s : List Char) : Res (Except BlockParseError Grid) :=
  blockLoop debug (lines s) 0 0 .unknown (Vector.replicate 81 0)

/-- The loop over the characters of a line in `from_str_block_permissive`, src/board/sudoku.rs
lines 545-560 (`nums_in_row` is an index, so a `usize`). -/
def permRowLoop (debug : Bool) : List Char → Nat → Vector UInt8 9 → Res (Option (Vector UInt8 9))
  | [], _, _ => .ok none
  | ch :: rest, n, row => do
    let (n, row) ←
      (if ch = '.' ∨ ch = '_' then
        if h : n < 9 then Res.ok (n + 1, row.set n 0) else .panic
      else if '0' ≤ ch ∧ ch ≤ '9' then
        if h : n < 9 then do
          let digit ← sub debug (UInt8.ofNat ch.toNat) (UInt8.ofNat '0'.toNat)
          Res.ok (n + 1, row.set n digit)
        else .panic
      else Res.ok (n, row))
    if n = 9 then .ok (some row) else permRowLoop debug rest n row

/-- The loop over the lines, src/board/sudoku.rs lines 542-564, and the final error, line 565, where the `usize`
becomes a `u8`. -/
def permLoop (debug : Bool) : List (List Char) → Nat → Grid → Res (Except UInt8 Grid)
  | [], validRows, _ => .ok (.error (UInt8.ofNat validRows))
  | line :: rest, validRows, grid => do
    let (validRows, grid) ← (do
      match ← permRowLoop debug line 0 (Vector.replicate 9 0) with
      | some row => do
        let grid ← copyRow grid validRows row
        Res.ok (validRows + 1, grid)
      | none => Res.ok (validRows, grid))
    if validRows = 9 then .ok (.ok grid) else permLoop debug rest validRows grid

/-- `from_str_block_permissive`, src/board/sudoku.rs lines 538-566. -/
def fromStrBlockPermissive (debug : Bool) (s : List Char) : Res (Except UInt8 Grid) :=
  permLoop debug (lines s) 0 (Vector.replicate 81 0)

/-- The byte for one entry in `to_str_line`, src/board/sudoku.rs lines 759-762. -/
def lineByte (debug : Bool) (n : UInt8) : Res UInt8 :=
  match numToOpt n with
  | some num => add debug num '0'.toUInt8
  | none => .ok '.'.toUInt8

/-- `to_str_line`, src/board/sudoku.rs lines 756-765. -/
def toStrLine (debug : Bool) (g : Grid) : Res (List UInt8) := g.toList.mapM (lineByte debug)

end Verif.RawText
