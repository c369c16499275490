import Verif.Spec.Board
import Mathlib.Algebra.Group.End

/-!
# Specification: transformations that turn a sudoku into an equivalent one
-/
namespace Verif

/-- The permutation of the nine rows (or columns) moves rows of the same band to rows of the same band: it permutes
the bands and the rows within the bands. -/
def KeepsChutes (p : Equiv.Perm (Fin 9)) : Prop :=
  ∀ i j : Fin 9, i.val / 3 = j.val / 3 → (p i).val / 3 = (p j).val / 3

/-- A validity preserving transformation: transposition or not, a permutation of the rows and one of the columns
that respect bands and stacks, and a relabelling of the digits (digit `d` is the element `d - 1` of `Fin 9`). -/
structure Sym where
  transposed : Bool
  rows : Equiv.Perm (Fin 9)
  cols : Equiv.Perm (Fin 9)
  digits : Equiv.Perm (Fin 9)
  rows_ok : KeepsChutes rows
  cols_ok : KeepsChutes cols

/-- The content of the cell in row `r` and column `c`. -/
def cellRC (g : Grid) (r c : Fin 9) : UInt8 := g[9 * r.val + c.val]

/-- A relabelled entry: empty cells stay empty. -/
def relabel (p : Equiv.Perm (Fin 9)) (v : UInt8) : UInt8 :=
  if h : 1 ≤ v.toNat ∧ v.toNat ≤ 9 then UInt8.ofNat ((p ⟨v.toNat - 1, by omega⟩).val + 1) else v

/-- The transformed board: row `r` and column `c` of the result come from row `T.rows r` and column `T.cols c`
of the (possibly transposed) board, with the digits relabelled. -/
def act (T : Sym) (g : Grid) : Grid :=
  Vector.ofFn (fun i : Fin 81 =>
    let r := T.rows ⟨i.val / 9, by omega⟩
    let c := T.cols ⟨i.val % 9, by omega⟩
    relabel T.digits (if T.transposed then cellRC g c r else cellRC g r c))

/-- `h` can be obtained from `g` by a transformation. -/
def Equivalent (g h : Grid) : Prop := ∃ T : Sym, act T g = h

/-- Lexicographic order of boards, read row by row. -/
def LexLt (g h : Grid) : Prop := ∃ i : Fin 81, (∀ j : Fin 81, j < i → g[j] = h[j]) ∧ g[i] < h[i]

/-- `g` is lexicographically at most `h`. -/
def LexLe (g h : Grid) : Prop := g = h ∨ LexLt g h

end Verif
