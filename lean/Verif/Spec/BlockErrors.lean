import Verif.Model.Text

/-!
# Specification: what is wrong with a text that is not a block

From the model only the type of the errors is used.
-/
namespace Verif.Text

open Verif Sudoku

/-- What is wrong with a row, from a position on: `t2` is what remains of the template, `rest` of the
line, `n` cells have been read. -/
def RowFault (r n : Nat) (t2 : List Bool) (rest : List Char) (e : BlockParseError) : Prop :=
  match t2, rest with
  | [], [] => False
  | [], c :: _ => (cellValue c ≠ none ∧ e = .invalidLineLength r) ∨
      (cellValue c = none ∧ isBlank c = false ∧ e = .missingCommentDelimiter r)
  | _ :: _, [] => e = .invalidLineLength r
  | true :: _, c :: _ => cellValue c = none ∧ e = .invalidEntry (9 * r + n) c
  | false :: _, c :: _ => c ≠ '|' ∧ e = .incorrectFieldDelimiter

/-- What is wrong with a block, from a line on; `r` rows have been read. -/
def BlockFault (d plus : Bool) (r : Nat) (items : List Bool) (rest : List (List Char))
    (e : BlockParseError) : Prop :=
  match items, rest with
  | [], [] => False
  | [], l :: _ => l.all isWhitespace = false ∧ e = .tooManyRows
  | _ :: _, [] => e = .notEnoughRows (r + 1)
  | true :: _, l :: _ => ∃ t1 t2 body tail vs, rowTemplate d = t1 ++ t2 ∧ l = body ++ tail ∧
      Matches t1 body vs ∧ RowFault r vs.length t2 tail e
  | false :: _, l :: _ => ¬ SepOK plus l ∧ e = .incorrectFieldDelimiter

/-- The text is not a block and the first thing wrong with it, read from the top and from the left, is what
the error says: the lines before the faulty one fit the shape of a block. -/
def BlockError (s : List Char) (e : BlockParseError) : Prop :=
  let d := usesDelimiters (lines s)
  let plus := usesPlus (lines s)
  ∃ before after block rest rows, blockTemplate d = before ++ after ∧ lines s = block ++ rest ∧
    BlockMatches d plus before block rows ∧ BlockFault d plus rows.length after rest e

end Verif.Text
