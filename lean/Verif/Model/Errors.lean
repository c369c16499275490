import Verif.Model.Text
import Verif.Model.Positions

/-!
# Model of the error values of the parsers: `/repo/src/errors.rs`

A text is the list of its characters.  `Display` is derived by the crate `thiserror` from the attributes `#[error(..)]`;
numbers are printed in decimal.
-/
namespace Verif.Errors

open Verif Verif.Text Verif.Sudoku

/-- `{}` of an unsigned number. -/
def showNum (n : Nat) : List Char := Nat.toDigits 10 n

/-! The literals in the attributes `#[error(..)]`, src/errors.rs lines 7-97. -/

def msgCell : List Char := "cell ".toList
def msgInvalid : List Char := " contains invalid character '".toList
def msgQuote : List Char := "'".toList
def msgEntries : List Char := "byte array contains entries >9".toList
def msgLength : List Char := "byte slice should have length 81, found ".toList
def msgLine : List Char := "a sudoku line should have 9 entries, found ".toList
def msgRows : List Char := "a sudoku should have 9 rows, found only ".toList
def msgField : List Char := "inconsistent field delimiters".toList
def msgTenth : List Char := "a sudoku should have 9 rows, found a 10th".toList
def msgCommentLine : List Char := "missing comment delimiter in line ".toList
def msgContains : List Char := "sudoku contains ".toList
def msgInstead : List Char := " cells instead of required 81".toList
def msgMore : List Char := "sudoku contains more than 81 cells or is missing comment delimiter".toList
def msgComment : List Char := "missing comment delimiter".toList
def msgEnded : List Char := "input ended after ".toList
def msgValid : List Char := " valid rows".toList

/-- `InvalidEntry`, src/errors.rs lines 23-31. -/
structure InvalidEntry where
  cell : UInt8
  ch : Char

/-- `InvalidEntry::row`, src/errors.rs lines 34-38, with `row`, src/board/positions.rs lines 12-15. -/
def InvalidEntry.row (e : InvalidEntry) : UInt8 := e.cell / 9

/-- `InvalidEntry::col`, src/errors.rs lines 39-43, with `col`, src/board/positions.rs lines 16-19. -/
def InvalidEntry.col (e : InvalidEntry) : UInt8 := e.cell % 9

/-- `InvalidEntry::block`, src/errors.rs lines 44-48, with `block` and the table `BLOCK`, src/board/positions.rs lines
20-23 and 33-45: panics for cells that do not exist. -/
def InvalidEntry.block (e : InvalidEntry) : Res UInt8 :=
  match PosTables.block[e.cell.toNat]? with
  | some block => .ok (UInt8.ofNat block)
  | none => .panic

/-- `to_string` of `InvalidEntry`, src/errors.rs line 25. -/
def InvalidEntry.display (e : InvalidEntry) : List Char :=
  msgCell ++ showNum e.cell.toNat ++ msgInvalid ++ [e.ch] ++ msgQuote

/-- The `InvalidEntry` in a `LineParseError` or `BlockParseError` (whose model has its fields, the cell as a number).  The
cell is an `u8` in the code. -/
def invalidEntry (cell : Nat) (ch : Char) : InvalidEntry := ⟨UInt8.ofNat cell, ch⟩

/-- `to_string` of `FromBytesError`, src/errors.rs line 7. -/
def displayFromBytes : List Char := msgEntries

/-- `to_string` of `FromBytesSliceError`, src/errors.rs lines 12-19. -/
def displayFromBytesSlice : FromBytesSliceError → List Char
  | .wrongLength n => msgLength ++ showNum n
  | .fromBytes => displayFromBytes

/-- `to_string` of `NotEnoughRows`, src/errors.rs lines 52-55. -/
def displayNotEnoughRows (n : Nat) : List Char := msgEnded ++ showNum n ++ msgValid

/-- `to_string` of `BlockParseError`, src/errors.rs lines 58-80. -/
def displayBlockError : BlockParseError → List Char
  | .invalidEntry cell ch => (invalidEntry cell ch).display
  | .invalidLineLength n => msgLine ++ showNum n
  | .notEnoughRows n => msgRows ++ showNum n
  | .incorrectFieldDelimiter => msgField
  | .tooManyRows => msgTenth
  | .missingCommentDelimiter n => msgCommentLine ++ showNum n

/-- `to_string` of `LineParseError`, src/errors.rs lines 83-98. -/
def displayLineError : LineParseError → List Char
  | .invalidEntry cell ch => (invalidEntry cell ch).display
  | .notEnoughCells n => msgContains ++ showNum n ++ msgInstead
  | .tooManyCells => msgMore
  | .missingCommentDelimiter => msgComment

end Verif.Errors
