import Verif.Spec.Equivalence
import Verif.Model.Candidate

/-!
# Specification: where the cells and candidates go when a board is transformed
-/
namespace Verif.Strat

open Verif

/-- The cell whose content comes to cell `i` in the transformed board. -/
def source (T : Sym) (i : Fin 81) : Fin 81 :=
  let r := T.rows ⟨i.val / 9, by omega⟩
  let c := T.cols ⟨i.val % 9, by omega⟩
  if T.transposed then ⟨9 * c.val + r.val, by omega⟩ else ⟨9 * r.val + c.val, by omega⟩

/-- A set of candidates, transformed with the board: digit `d` in cell `c` is in it if the digit that became `d` in the
cell that came to `c` was in it. -/
def moved (T : Sym) (X : Fin 81 → Digit → Prop) (c : Fin 81) (d : Digit) : Prop := X (source T c) (T.digits.symm d)

end Verif.Strat
