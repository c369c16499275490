import Mathlib.Data.Finset.Lattice.Fold
import Verif.Spec.History
import Verif.Spec.Text

/-!
# Specification: the table of candidates that a strategy solver prints
-/
namespace Verif.GridText

open Verif Verif.Strat

/-- The digits shown for a cell: its digit, or the candidates that are left. -/
def shown : CellState → List Digit
  | .digit d => [d]
  | .candidates cands => (List.finRange 9).filter (fun d => d.val ∈ elems cands)

/-- A set of candidates contains digits only.  (The sets of this library do, but the type of bits allows more.) -/
def OnlyDigits : CellState → Prop
  | .digit _ => True
  | .candidates cands => ∀ i ∈ elems cands, i < 9

/-- The character of a digit. -/
def digitChar (d : Digit) : Char := ['1', '2', '3', '4', '5', '6', '7', '8', '9'][d.val]'(by have := d.isLt; simpa using this)

/-- What is written for a list of digits: their characters, or an underscore if there are none. -/
def entry (l : List Digit) : List Char := if l = [] then ['_'] else l.map digitChar

/-- `text` filled up with spaces on the right. -/
def padded (width : Nat) (text : List Char) : List Char := text ++ List.replicate (width - text.length) ' '

/-! ## The layout

`e row col` is the text of a cell. -/

/-- A column is as wide as its longest text. -/
def width (e : Fin 9 → Fin 9 → List Char) (col : Fin 9) : Nat := Finset.univ.sup (fun row => (e row col).length)

/-- Nine fields in three groups between the characters `l m m r`. -/
def framed (l m r : Char) (field : Fin 9 → List Char) : List Char :=
  [l] ++ field 0 ++ field 1 ++ field 2 ++ [m] ++ field 3 ++ field 4 ++ field 5 ++ [m] ++ field 6 ++ field 7 ++ field 8 ++
    [r]

/-- A horizontal line. -/
def rule (e : Fin 9 → Fin 9 → List Char) (l m r : Char) : List Char :=
  framed l m r (fun col => List.replicate (1 + width e col + 1) '─')

/-- The line of a row. -/
def rowText (e : Fin 9 → Fin 9 → List Char) (row : Fin 9) : List Char :=
  framed '│' '│' '│' (fun col => [' '] ++ padded (width e col) (e row col) ++ [' '])

/-- The lines of the table. -/
def tableLines (e : Fin 9 → Fin 9 → List Char) : List (List Char) :=
  [rule e '┌' '┬' '┐',
    rowText e 0, rowText e 1, rowText e 2,
    rule e '├' '┼' '┤',
    rowText e 3, rowText e 4, rowText e 5,
    rule e '├' '┼' '┤',
    rowText e 6, rowText e 7, rowText e 8,
    rule e '└' '┴' '┘']

/-- The text of the table: every line ends with a newline. -/
def table (e : Fin 9 → Fin 9 → List Char) : List Char := (tableLines e).flatMap (fun l => l ++ ['\n'])

/-- The texts of the cells of a grid state. -/
def entries (state : Vector CellState 81) (row col : Fin 9) : List Char :=
  entry (shown (state[9 * row.val + col.val]'(by omega)))

/-! ## Reading -/

/-- The words of a text: what stands between whitespace. -/
def words (text : List Char) : List (List Char) := (text.splitOnP Text.isWhitespace).filter (fun w => w ≠ [])

/-- A word is the entry of a cell: an underscore or decimal digits only. -/
def isEntry (w : List Char) : Bool := w = ['_'] || w.all Char.isDigit

/-! ## Which candidates are left

`g` holds the given digits and `X` the excluded ones (see `Reaches`). -/

/-- `d` is ruled out in the cell `c` by elimination: it was excluded, or the cell was given another digit, or a cell in the
same row, column or block has no other digit left than `d`. -/
inductive Ruled (g : Grid) (X : Fin 81 → Digit → Prop) : Fin 81 → Digit → Prop
  | excluded {c : Fin 81} {d : Digit} : X c d → Ruled g X c d
  | given {c : Fin 81} {d : Digit} : g[c] ≠ 0 → g[c] ≠ d.get → Ruled g X c d
  | house {c c' : Fin 81} {d : Digit} : c ≠ c' → SameHouse c c' → (∀ d' : Digit, d' ≠ d → Ruled g X c' d') → Ruled g X c d

end Verif.GridText
