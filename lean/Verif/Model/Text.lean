import Verif.Model.Sudoku
import Verif.Spec.Text

/-!
# Model of parsing and printing: `/repo/src/board/sudoku.rs` lines 25-91, 314-566, 756-902 and
`/repo/src/errors.rs`

A `&str` is a list of characters, see `Verif.Spec.Text` (which also holds the model of `str::lines`).
A function returning `Result<T, E>` returns `Except E T` inside `Res`, whose `panic` is a Rust panic.
The `u8` counters of cells, rows and columns are natural numbers: the loops bound them by 81.
-/
namespace Verif.Sudoku

open Verif Text

/-- `s.as_bytes()`. -/
def asBytes (s : List Char) : List UInt8 := s.flatMap String.utf8EncodeChar

/-- `&s[i..]`: panics if `i` is not a character boundary. -/
def sliceFrom : List Char → Nat → Res (List Char)
  | s, 0 => .ok s
  | [], _ + 1 => .panic
  | c :: s, n + 1 => if n + 1 < c.utf8Size then .panic else sliceFrom s (n + 1 - c.utf8Size)
termination_by s => s.length

/-- `LineParseError`, src/errors.rs lines 82-98 (with `InvalidEntry`, lines 23-31, as its two fields). -/
inductive LineParseError where
  | invalidEntry (cell : Nat) (ch : Char)
  | notEnoughCells (n : Nat)
  | tooManyCells
  | missingCommentDelimiter
deriving DecidableEq, Repr

/-- The loop of `from_str_line`, src/board/sudoku.rs lines 322-337; `i` and `grid` are its mutable variables,
the list is what remains of `chars`.  The loop ends when the bytes or (`zip`) the cells of the grid
are used up. -/
def lineLoop (s : List Char) : List UInt8 → Nat → Grid → Res (Except LineParseError (Nat × Grid))
  | [], i, grid => .ok (.ok (i, grid))
  | ch :: rest, i, grid =>
    if h : i < 81 then
      if ch = '_'.toUInt8 ∨ ch = '.'.toUInt8 then lineLoop s rest (i + 1) (grid.set i 0)
      else if '0'.toUInt8 ≤ ch ∧ ch ≤ '9'.toUInt8 then
        lineLoop s rest (i + 1) (grid.set i (ch - '0'.toUInt8))
      else if ch = ' '.toUInt8 ∨ ch = '\t'.toUInt8 then .ok (.error (.notEnoughCells i))
      else do
        match ← sliceFrom s i with
        | c :: _ => .ok (.error (.invalidEntry i c))
        | [] => .panic
    else .ok (.ok (i, grid))

/-- The body of `from_str_line` without the fast path, src/board/sudoku.rs lines 320-356. -/
def fromStrLineSlow (s : List Char) : Res (Except LineParseError Grid) := do
  let chars := asBytes s
  match ← lineLoop s chars 0 (Vector.replicate 81 0) with
  | .error e => .ok (.error e)
  | .ok (i, grid) =>
    if i ≠ 81 then .ok (.error (.notEnoughCells i))
    else
      match chars[81]? with
      | none => .ok (.ok grid)
      | some ch =>
        if ch = '\t'.toUInt8 ∨ ch = ' '.toUInt8 ∨ ch = '\r'.toUInt8 ∨ ch = '\n'.toUInt8 ∨
            ch = ';'.toUInt8 ∨ ch = ','.toUInt8 then .ok (.ok grid)
        else if ch = '_'.toUInt8 ∨ ch = '.'.toUInt8 ∨ ('0'.toUInt8 ≤ ch ∧ ch ≤ '9'.toUInt8) then
          .ok (.error .tooManyCells)
        else .ok (.error .missingCommentDelimiter)

/-- The mapping of one byte in `_from_str_line_fast_path`, src/board/sudoku.rs lines 371-379
(`wrapping_sub`). -/
def fastByte (b : UInt8) : UInt8 :=
  let cell := b - '0'.toUInt8
  let cell := if cell = '_'.toUInt8 - '0'.toUInt8 then 0 else cell
  if cell = '.'.toUInt8 - '0'.toUInt8 then 0 else cell

/-- The `matches!` on the byte after the sudoku, src/board/sudoku.rs lines 381-383. -/
def validEnding (ch : Option UInt8) : Bool :=
  match ch with
  | none => true
  | some ch => decide (ch = '\t'.toUInt8 ∨ ch = ' '.toUInt8 ∨ ch = '\r'.toUInt8 ∨ ch = '\n'.toUInt8 ∨
      ch = ';'.toUInt8 ∨ ch = ','.toUInt8)

/-- `_from_str_line_fast_path`, src/board/sudoku.rs lines 363-389. -/
def fastPath (chars : List UInt8) : Option Grid :=
  if h : chars.length < 81 then none
  else
    let grid : Grid := Vector.ofFn (fun i : Fin 81 => fastByte (chars[i.val]'(by omega)))
    if validEnding chars[81]? = true then fromBytes grid else none

/-- `from_str_line`, src/board/sudoku.rs lines 314-357. -/
def fromStrLine (s : List Char) : Res (Except LineParseError Grid) :=
  match fastPath (asBytes s) with
  | some g => .ok (.ok g)
  | none => fromStrLineSlow s

/-- `BlockParseError`, src/errors.rs lines 58-80. -/
inductive BlockParseError where
  | invalidEntry (cell : Nat) (ch : Char)
  | invalidLineLength (row : Nat)
  | notEnoughRows (n : Nat)
  | incorrectFieldDelimiter
  | tooManyRows
  | missingCommentDelimiter (row : Nat)
deriving DecidableEq, Repr

/-- The local enum `Format` of `from_str_block`, src/board/sudoku.rs lines 430-436. -/
inductive Format where
  | unknown | delimited | delimitedPlus | bare
deriving DecidableEq, Repr

/-- The loop over the characters of a line in `from_str_block`, src/board/sudoku.rs lines 473-515;
`strCol`, `nCol`, `fmt`, `grid` are its variables, `nLine` is `n_line_sud`. -/
def rowLoop (nLine : Nat) : List Char → Nat → Nat → Format → Grid →
    Res (Except BlockParseError (Nat × Format × Grid))
  | [], _, nCol, fmt, grid => .ok (.ok (nCol, fmt, grid))
  | ch :: rest, strCol, nCol, fmt, grid =>
    if nCol = 9 then
      if ch = ' ' ∨ ch = '\t' then .ok (.ok (nCol, fmt, grid))
      else if ('1' ≤ ch ∧ ch ≤ '9') ∨ ch = '_' ∨ ch = '.' ∨ ch = '0' then
        .ok (.error (.invalidLineLength nLine))
      else .ok (.error (.missingCommentDelimiter nLine))
    else
      let fmt := if (strCol = 3 ∨ strCol = 7) ∧ fmt = .unknown then
          (if ch = '|' then .delimited else .bare) else fmt
      if (strCol = 3 ∨ strCol = 7) ∧ (fmt = .delimited ∨ fmt = .delimitedPlus) then
        if ch = '|' then rowLoop nLine rest (strCol + 1) nCol fmt grid
        else .ok (.error .incorrectFieldDelimiter)
      else
        let cell := nLine * 9 + nCol
        if ch = '_' ∨ ch = '.' then
          if h : cell < 81 then rowLoop nLine rest (strCol + 1) (nCol + 1) fmt (grid.set cell 0)
          else .panic
        else if '0' ≤ ch ∧ ch ≤ '9' then
          if h : cell < 81 then
            rowLoop nLine rest (strCol + 1) (nCol + 1) fmt
              (grid.set cell (UInt8.ofNat ch.toNat - UInt8.ofNat '0'.toNat))
          else .panic
        else .ok (.error (.invalidEntry cell ch))

/-- `line.starts_with(pat)`. -/
def startsWith (line : List Char) (pat : List Char) : Bool := pat.isPrefixOf line

/-- The literal `"-----------"`. -/
def minusLit : List Char := ['-', '-', '-', '-', '-', '-', '-', '-', '-', '-', '-']
/-- The literal `"---+---+---"`. -/
def plusLit : List Char := ['-', '-', '-', '+', '-', '-', '-', '+', '-', '-', '-']

/-- The treatment of the horizontal delimiter lines in `from_str_block`, src/board/sudoku.rs
lines 451-471: the new format and whether to `continue` with the next line, or the error. -/
def sepCheck (nLineStr : Nat) (line : List Char) (fmt : Format) :
    Except BlockParseError (Format × Bool) :=
  if (fmt = .delimited ∨ fmt = .delimitedPlus) ∧ (nLineStr = 3 ∨ nLineStr = 7) then
    let fmt := if nLineStr = 3 ∧
        (startsWith line plusLit ∨ startsWith line (plusLit ++ [' '])) then .delimitedPlus else fmt
    if fmt = .delimited then
      if ¬ (startsWith line minusLit ∨ startsWith line (minusLit ++ [' '])) then
        .error .incorrectFieldDelimiter
      else .ok (fmt, true)
    else if fmt = .delimitedPlus then
      if ¬ (startsWith line plusLit ∨ startsWith line (plusLit ++ [' '])) then
        .error .incorrectFieldDelimiter
      else .ok (fmt, true)
    else .ok (fmt, false)
  else .ok (fmt, false)

/-- The loop over the lines in `from_str_block`, src/board/sudoku.rs lines 441-521, and what follows it,
lines 522-525. -/
def blockLoop : List (List Char) → Nat → Nat → Format → Grid → Res (Except BlockParseError Grid)
  | [], _, nLine, _, grid =>
    if nLine ≠ 9 then .ok (.error (.notEnoughRows (nLine + 1))) else .ok (.ok grid)
  | line :: rest, nLineStr, nLine, fmt, grid =>
    if nLine = 9 then
      if line.all isWhitespace then .ok (.ok grid) else .ok (.error .tooManyRows)
    else
      match sepCheck nLineStr line fmt with
      | .error e => .ok (.error e)
      | .ok (fmt, true) => blockLoop rest (nLineStr + 1) nLine fmt grid
      | .ok (fmt, false) => do
        match ← rowLoop nLine line 0 0 fmt grid with
        | .error e => .ok (.error e)
        | .ok (nCol, fmt, grid) =>
          if nCol ≠ 9 then .ok (.error (.invalidLineLength nLine))
          else blockLoop rest (nLineStr + 1) (nLine + 1) fmt grid

/-- `from_str_block`, src/board/sudoku.rs lines 428-526. -/
def fromStrBlock (s : List Char) : Res (Except BlockParseError Grid) :=
  blockLoop (lines s) 0 0 .unknown (Vector.replicate 81 0)

/-- `grid[9*r .. 9*r+9].copy_from_slice(&row_vals)`. -/
def copyRow (grid : Grid) (r : Nat) (row : Vector UInt8 9) : Res Grid :=
  if 9 * r + 9 ≤ 81 then
    .ok (Vector.ofFn (fun i : Fin 81 => if h : 9 * r ≤ i.val ∧ i.val < 9 * r + 9 then
      row[i.val - 9 * r]'(by omega) else grid[i]))
  else .panic

/-- The loop over the characters of a line in `from_str_block_permissive`, src/board/sudoku.rs
lines 545-560: `some row` if the row became full (and is then copied), `none` at the end of the line. -/
def permRowLoop : List Char → Nat → Vector UInt8 9 → Res (Option (Vector UInt8 9))
  | [], _, _ => .ok none
  | ch :: rest, n, row => do
    let (n, row) ←
      (if ch = '.' ∨ ch = '_' then
        if h : n < 9 then Res.ok (n + 1, row.set n 0) else .panic
      else if '0' ≤ ch ∧ ch ≤ '9' then
        if h : n < 9 then Res.ok (n + 1, row.set n (UInt8.ofNat ch.toNat - UInt8.ofNat '0'.toNat))
        else .panic
      else Res.ok (n, row))
    if n = 9 then .ok (some row) else permRowLoop rest n row

/-- The loop over the lines, src/board/sudoku.rs lines 542-564, and the final error, line 565. -/
def permLoop : List (List Char) → Nat → Grid → Res (Except Nat Grid)
  | [], validRows, _ => .ok (.error validRows)
  | line :: rest, validRows, grid => do
    let (validRows, grid) ← (do
      match ← permRowLoop line 0 (Vector.replicate 9 0) with
      | some row => do
        let grid ← copyRow grid validRows row
        Res.ok (validRows + 1, grid)
      | none => Res.ok (validRows, grid))
    if validRows = 9 then .ok (.ok grid) else permLoop rest validRows grid

/-- `from_str_block_permissive`, src/board/sudoku.rs lines 538-566.  The error is `NotEnoughRows(n)`. -/
def fromStrBlockPermissive (s : List Char) : Res (Except Nat Grid) :=
  permLoop (lines s) 0 (Vector.replicate 81 0)

/-- `to_str_line`, src/board/sudoku.rs lines 756-765: the 81 bytes of a `SudokuLine`.
`num + b'0'` does not overflow for entries up to 207; entries are at most 9. -/
def toStrLine (g : Grid) : Vector UInt8 81 :=
  g.map (fun n => match numToOpt n with
    | some num => num + '0'.toUInt8
    | none => '.'.toUInt8)

/-- `SudokuLine::deref`, src/board/sudoku.rs lines 864-869: panics unless the bytes are valid UTF-8. -/
def lineDeref (line : Vector UInt8 81) : Res (List Char) :=
  match String.fromUTF8? ⟨line.toArray⟩ with
  | some s => .ok s.toList
  | none => .panic

/-- `SudokuBlock`'s `Display`, src/board/sudoku.rs lines 882-901: what is printed for one cell. -/
def displayCell (g : Grid) (c : Fin 81) : List Char :=
  let row := (Pos.cellRow c).val
  let col := (Pos.cellCol c).val
  (if col = 3 ∨ col = 6 then [' ']
   else if (row = 3 ∧ col = 0) ∨ (row = 6 ∧ col = 0) then ['\n', '\n']
   else if col = 0 then ['\n']
   else []) ++
  (match Pos.digitNewChecked g[c] with
   | none => ['_']
   | some d => Nat.toDigits 10 d.toNat)

/-- `display_block` followed by formatting, src/board/sudoku.rs lines 796-798 and 881-902. -/
def displayBlock (g : Grid) : List Char := (List.finRange 81).flatMap (displayCell g)

/-- The derived `Ord` on arrays of bytes (`Sudoku`, line 23, and `SudokuLine`, line 840):
lexicographic. -/
def arrayCmp : List UInt8 → List UInt8 → Ordering
  | [], [] => .eq
  | [], _ :: _ => .lt
  | _ :: _, [] => .gt
  | a :: as, b :: bs => if a < b then .lt else if b < a then .gt else arrayCmp as bs

/-- `Sudoku::cmp`. -/
def cmp (a b : Grid) : Ordering := arrayCmp a.toList b.toList

/-- What a serializer is handed, src/board/sudoku.rs lines 25-38. -/
inductive Serialized where
  | str (s : List Char)
  | bytes (b : List UInt8)

/-- `Serialize for Sudoku`, src/board/sudoku.rs lines 25-38. -/
def serialize (humanReadable : Bool) (g : Grid) : Res Serialized :=
  if humanReadable then do .ok (.str (← lineDeref (toStrLine g)))
  else .ok (.bytes g.toList)

/-- `visit_bytes` of `ByteSudoku`, src/board/sudoku.rs lines 53-60; `none` is the custom error. -/
def visitBytes (b : List UInt8) : Option Grid :=
  match fromBytesSlice b with
  | .ok g => some g
  | .error _ => none

/-- `visit_str` of `StrSudoku`, src/board/sudoku.rs lines 70-75. -/
def visitStr (s : List Char) : Res (Except LineParseError Grid) := fromStrLine s

/-- `Deserialize for Sudoku`, src/board/sudoku.rs lines 79-91, when the format hands back data of the
kind asked for; a format that hands back data of the other kind is answered with serde's default
type error, `none`. -/
def deserialize (humanReadable : Bool) (d : Serialized) : Res (Option Grid) :=
  match humanReadable, d with
  | true, .str s => do
    match ← visitStr s with
    | .ok g => .ok (some g)
    | .error _ => .ok none
  | false, .bytes b => .ok (visitBytes b)
  | _, _ => .ok none

end Verif.Sudoku
