import Verif.Model.Candidate
import Verif.Spec.Board
import Verif.Spec.Sets

/-!
# Specification: avoidable rectangles
-/
namespace Verif.Rectangles

open Verif

/-- The cell in a row and a column. -/
def cellAt (row col : Fin 9) : Fin 81 := ⟨9 * row.val + col.val, by omega⟩

/-- The cell of `e` is the free corner, in the row `r` and the column `c`, of a rectangle in two blocks.  The other corners
are filled, but not by clues, with two digits together; `e` is the only candidate of the free corner among these digits. -/
structure Avoidable (filled clues : Grid) (cand : Fin 81 → Digit → Prop) (r r' c c' : Fin 9) (e : Candidate) : Prop where
  rows : r ≠ r'
  cols : c ≠ c'
  blocks : ¬ (r.val / 3 = r'.val / 3 ↔ c.val / 3 = c'.val / 3)
  cell : e.cell = cellAt r c
  free : filled[cellAt r c] = 0
  filled1 : filled[cellAt r c'] ≠ 0 ∧ clues[cellAt r c'] = 0
  filled2 : filled[cellAt r' c] ≠ 0 ∧ clues[cellAt r' c] = 0
  filled3 : filled[cellAt r' c'] ≠ 0 ∧ clues[cellAt r' c'] = 0
  two : ({filled[cellAt r c'], filled[cellAt r' c], filled[cellAt r' c']} : Finset UInt8).card = 2
  digit : e.digit.get = filled[cellAt r c'] ∨ e.digit.get = filled[cellAt r' c] ∨ e.digit.get = filled[cellAt r' c']
  possible : cand e.cell e.digit
  only : ∀ d : Digit, d.get = filled[cellAt r c'] ∨ d.get = filled[cellAt r' c] ∨ d.get = filled[cellAt r' c'] →
    cand e.cell d → d = e.digit

end Verif.Rectangles
