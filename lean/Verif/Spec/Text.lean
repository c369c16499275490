import Verif.Spec.Board

/-!
# Specification: the text formats

A Rust `&str` is modelled by its list of characters (Unicode scalar values); its bytes are the
concatenation of the UTF-8 encodings of the characters (`String.utf8EncodeChar` of Lean's core).
-/
namespace Verif.Text

open Verif

/-- The value of a cell character: the digit written, `0` for `'_'` and `'.'`; `none` if the character
cannot stand for a cell. -/
def cellValue (c : Char) : Option UInt8 :=
  if c = '_' ∨ c = '.' then some 0
  else if '0' ≤ c ∧ c ≤ '9' then some (UInt8.ofNat (c.toNat - '0'.toNat))
  else none

/-- All characters stand for cells. -/
def AllCells (cs : List Char) : Prop := ∀ c ∈ cs, cellValue c ≠ none

/-- The first 81 characters are cells with the values of the grid. -/
def ReadsAs (cs : List Char) (g : Grid) : Prop :=
  ∀ i : Fin 81, (cs[i.val]?).bind cellValue = some g[i]

/-- The characters that may separate a comment from the sudoku in the line format. -/
def isDelimiter (c : Char) : Bool :=
  c = ' ' || c = '\t' || c = '\n' || c = '\r' || c = ',' || c = ';'

/-- The characters that may separate a comment from a row in the block format. -/
def isBlank (c : Char) : Bool := c = ' ' || c = '\t'

/-- Unicode `White_Space`, i.e. Rust's `char::is_whitespace`. -/
def isWhitespace (c : Char) : Bool :=
  let n := c.toNat
  (9 ≤ n && n ≤ 13) || n = 0x20 || n = 0x85 || n = 0xA0 || n = 0x1680 || (0x2000 ≤ n && n ≤ 0x200A) ||
    n = 0x2028 || n = 0x2029 || n = 0x202F || n = 0x205F || n = 0x3000

/-- The lines of a text, Rust's `str::lines`: lines end at `"\n"` or `"\r\n"` (not included); a final line
ending is optional; a `'\r'` not followed by `'\n'` is kept (std since Rust 1.67; before, a `'\r'` at the very
end of the text was dropped as well).  `acc` is the current line reversed. -/
def linesAux (acc : List Char) : List Char → List (List Char)
  | [] => if acc = [] then [] else [acc.reverse]
  | c :: rest =>
    if c = '\n' then
      (match acc with
        | '\r' :: acc' => acc'.reverse
        | _ => acc.reverse) :: linesAux [] rest
    else linesAux (c :: acc) rest

/-- The lines of a text. -/
def lines (s : List Char) : List (List Char) := linesAux [] s

/-- The cells of row `r`. -/
def gridRow (g : Grid) (r : Fin 9) : List UInt8 :=
  List.ofFn (fun k : Fin 9 => g[9 * r.val + k.val]'(by omega))

/-! ## Shape of a block -/

/-- The shape of a row: `true` stands for a cell, `false` for the delimiter `'|'`. -/
def rowTemplate (delimited : Bool) : List Bool :=
  if delimited then
    [true, true, true, false, true, true, true, false, true, true, true]
  else List.replicate 9 true

/-- `Matches t body vals`: the characters `body` fit the template `t`, with cell values `vals`. -/
inductive Matches : List Bool → List Char → List UInt8 → Prop
  | nil : Matches [] [] []
  | cell {c v t b vs} : cellValue c = some v → Matches t b vs → Matches (true :: t) (c :: b) (v :: vs)
  | bar {t b vs} : Matches t b vs → Matches (false :: t) ('|' :: b) vs

/-- A line consists of a complete row with values `vals`, optionally followed by a space or tab and
any comment. -/
def RowOK (delimited : Bool) (line : List Char) (vals : List UInt8) : Prop :=
  ∃ body tail, line = body ++ tail ∧ Matches (rowTemplate delimited) body vals ∧
    (tail = [] ∨ ∃ c rest, tail = c :: rest ∧ isBlank c = true)

/-- The two kinds of horizontal field delimiter. -/
def sepText (plus : Bool) : List Char :=
  if plus then ['-', '-', '-', '+', '-', '-', '-', '+', '-', '-', '-']
  else ['-', '-', '-', '-', '-', '-', '-', '-', '-', '-', '-']

/-- A line is a horizontal field delimiter (any text may follow). -/
def SepOK (plus : Bool) (line : List Char) : Prop := ∃ rest, line = sepText plus ++ rest

/-- What stands on the lines of a block: rows (`true`) and horizontal delimiters (`false`). -/
def blockTemplate (delimited : Bool) : List Bool := rowTemplate delimited

/-- `BlockMatches d plus items ls rows`: the lines `ls` fit the items, with the values `rows`. -/
inductive BlockMatches (delimited plus : Bool) : List Bool → List (List Char) → List (List UInt8) → Prop
  | nil : BlockMatches delimited plus [] [] []
  | row {l vs items ls vss} : RowOK delimited l vs → BlockMatches delimited plus items ls vss →
      BlockMatches delimited plus (true :: items) (l :: ls) (vs :: vss)
  | sep {l items ls vss} : SepOK plus l → BlockMatches delimited plus items ls vss →
      BlockMatches delimited plus (false :: items) (l :: ls) vss

/-- The line after the sudoku, if any, must consist of whitespace only. -/
def EndOK (rest : List (List Char)) : Prop :=
  rest = [] ∨ ∃ l ls, rest = l :: ls ∧ l.all isWhitespace = true

/-- A text holds the sudoku `g` in the block format, bare or with consistent field delimiters. -/
def IsBlock (s : List Char) (g : Grid) : Prop :=
  ∃ delimited plus block rest, lines s = block ++ rest ∧
    BlockMatches delimited plus (blockTemplate delimited) block (List.ofFn (gridRow g)) ∧ EndOK rest

/-- The field delimiters are in use: the fourth character of the first line is `'|'`. -/
def usesDelimiters (ls : List (List Char)) : Bool :=
  decide ((ls.head?.bind (fun l => l[3]?)) = some '|')

/-- The horizontal delimiters in use are `---+---+---`: the fourth line starts like this. -/
def usesPlus (ls : List (List Char)) : Bool :=
  match ls[3]? with
  | some l => (sepText true).isPrefixOf l
  | none => false

/-- The rows a permissive reader finds: of every line with at least nine cell characters, the values of the
first nine. -/
def permissiveRows (s : List Char) : List (List UInt8) :=
  (lines s).filterMap (fun l =>
    if 9 ≤ (l.filterMap cellValue).length then some ((l.filterMap cellValue).take 9) else none)

end Verif.Text
