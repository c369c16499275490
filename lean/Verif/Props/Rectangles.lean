import Verif.Proofs.Rectangles
import Verif.Props.Solver
import Verif.Spec.Examples

/-! C75: avoidable rectangles. -/
namespace Verif.Props

open Verif Strat Rectangles

/-- **C75** (what is found).  For cells with digits or nothing in them and candidates that are digits, the search never fails,
and it finds precisely the avoidable rectangles, each with its two rows and two columns (the lines 0..8 and 9..17). -/
theorem C75_found (filled clues : Grid) (hw : WellFormed filled) (cp : Vector DigitSet 81)
    (hf : ∀ c : Fin 81, elems cp[c] ⊆ Finset.range 9) :
    ∃ l, findAvoidableRectangles filled clues cp = .ok l ∧ ∀ ls e, (ls, e) ∈ l ↔
      ∃ r r' c c' : Fin 9, Avoidable filled clues (fun cell d => d.val ∈ elems cp[cell]) r r' c c' e ∧
        elems ls = {r.val, r'.val, 9 + c.val, 9 + c'.val} := by
  obtain ⟨l, e, h⟩ := find_spec (clues := clues) hw (fun c => Bitset.fits_iff.mpr (hf c))
  refine ⟨l, e, fun ls e => ?_⟩
  have hc : (fun cell (d : Digit) => d.val ∈ elems cp[cell]) = Cand cp := by
    funext cell d
    exact propext Bitset.mem_elems
  rw [hc]
  exact h ls e

/-- **C75** (soundness).  If the clues have a unique solution and the filled cells are from it, a found candidate is not in the
solution, whatever the candidates were. -/
theorem C75_sound (filled clues t : Grid) (hu : UniquelySolvable clues) (hc : Extends clues filled) (ht : IsSolution clues t)
    (hft : Extends filled t) (hw : WellFormed filled) (cp : Vector DigitSet 81)
    (hf : ∀ c : Fin 81, elems cp[c] ⊆ Finset.range 9) (l : List (LineSet × Candidate))
    (h : findAvoidableRectangles filled clues cp = .ok l) : ∀ x ∈ l, t[x.2.cell] ≠ x.2.digit.get := by
  rintro ⟨ls, e⟩ hx
  obtain ⟨l', e', hl⟩ := C75_found filled clues hw cp hf
  rw [h] at e'
  cases e'
  obtain ⟨r, r', c, c', hA, -⟩ := (hl ls e).mp hx
  obtain ⟨u, hu1, hu2⟩ := hu
  have : t = u := hu2 t ht
  exact avoidable_sound ht.1 hc hft (fun t' h' => (hu2 t' h').trans this.symm) hA

/-- **C75** (the digit).  If no candidate is in a house with its digit, the found digit is the one in the opposite corner, and
the two other corners have the same digit. -/
theorem C75_opposite (filled clues t : Grid) (ht : Solved t) (hft : Extends filled t) (hw : WellFormed filled)
    (cp : Vector DigitSet 81) (hf : ∀ c : Fin 81, elems cp[c] ⊆ Finset.range 9)
    (hn : ∀ (cell : Fin 81) (d : Digit), d.val ∈ elems cp[cell] → ∀ j : Fin 81, j ≠ cell → SameHouse cell j → filled[j] ≠ d.get)
    (l : List (LineSet × Candidate)) (h : findAvoidableRectangles filled clues cp = .ok l) :
    ∀ x ∈ l, ∃ r r' c c' : Fin 9, r ≠ r' ∧ c ≠ c' ∧ elems x.1 = {r.val, r'.val, 9 + c.val, 9 + c'.val} ∧
      x.2.cell = cellAt r c ∧ x.2.digit.get = filled[cellAt r' c'] ∧ filled[cellAt r c'] = filled[cellAt r' c] := by
  rintro ⟨ls, e⟩ hx
  obtain ⟨l', e', hl⟩ := C75_found filled clues hw cp hf
  rw [h] at e'
  cases e'
  obtain ⟨r, r', c, c', hA, hls⟩ := (hl ls e).mp hx
  refine ⟨r, r', c, c', hA.rows, hA.cols, hls, hA.cell, ?_, (corners ht hft hA).1⟩
  have hB := hn e.cell e.digit hA.possible (cellAt r c') (by
    rw [hA.cell]; exact fun h => hA.cols (cellAt_inj.mp h).2.symm) (by rw [hA.cell]; exact sameRow _ _ _)
  have hC := hn e.cell e.digit hA.possible (cellAt r' c) (by
    rw [hA.cell]; exact fun h => hA.rows (cellAt_inj.mp h).1.symm) (by rw [hA.cell]; exact sameCol _ _ _)
  rcases hA.digit with h | h | h
  · exact absurd h.symm hB
  · exact absurd h.symm hC
  · exact h

namespace RectangleExample

/-- The digits of no cell in a house with a cell. -/
def unseen (g : Grid) : Vector DigitSet 81 := Vector.ofFn (fun c =>
  (List.finRange 9).foldl (fun a (d : Digit) => if (List.finRange 81).any (fun j => decide (j ≠ c ∧ SameHouse c j ∧ g[j] = d.get))
    then a else a ||| (BitVec.twoPow 16 d.val)) 0#16)

/-- `Ex.puzzle` with three more digits: 4 in R1C1 and R4C2, and 5 in R4C1. -/
def filled : Grid := ((Ex.puzzle.set 0 4).set 28 4).set 27 5

theorem unique : UniquelySolvable Ex.puzzle := by
  obtain ⟨b, h1, h2⟩ := C05_is_uniquely_solvable Ex.puzzle (by decide +kernel) 800 (Nat.le_refl _)
  have h3 : Sudoku.isUniquelySolvable 800 Ex.puzzle = .ok true := by decide +kernel
  rw [h3] at h1
  cases h1
  exact h2.1 rfl

end RectangleExample

open RectangleExample in
/-- The rectangle R14C12 is found: with a 5 in R1C2, the 4s and 5s could be exchanged. -/
example : WellFormed filled ∧ UniquelySolvable Ex.puzzle ∧ Extends Ex.puzzle filled ∧ IsSolution Ex.puzzle Ex.solved ∧
    Extends filled Ex.solved ∧ (∀ c : Fin 81, elems (unseen filled)[c] ⊆ Finset.range 9) ∧
    findAvoidableRectangles filled Ex.puzzle (unseen filled) = .ok [(0x609#32, ⟨1, 4⟩)] := by
  refine ⟨by decide +kernel, unique, by decide +kernel, by decide +kernel, by decide +kernel, by decide +kernel,
    by decide +kernel⟩

open RectangleExample in
/-- The hypothesis of `C75_opposite` is met, too. -/
example : ∀ (cell : Fin 81) (d : Digit), d.val ∈ elems (unseen filled)[cell] → ∀ j : Fin 81, j ≠ cell → SameHouse cell j →
    filled[j] ≠ d.get := by
  decide +kernel

/-- **C75** (soundness) is false if the clues have more than one solution: here all cells but the four corners of a rectangle are
clues, and the found candidate is in the solution that the filled cells are from. -/
theorem C75_without_uniqueness_false : ∃ (filled clues t : Grid) (cp : Vector DigitSet 81) (l : List (LineSet × Candidate)),
    Extends clues filled ∧ IsSolution clues t ∧ Extends filled t ∧ WellFormed filled ∧
    (∀ c : Fin 81, elems cp[c] ⊆ Finset.range 9) ∧
    findAvoidableRectangles filled clues cp = .ok l ∧ ∃ x ∈ l, t[x.2.cell] = x.2.digit.get := by
  refine ⟨Ex.solved.set 1 0, (((Ex.solved.set 1 0).set 6 0).set 10 0).set 15 0, Ex.solved,
    (Vector.replicate 81 0#16).set 1 0x80#16, [(0x8403#32, ⟨1, 7⟩)], ?_⟩
  refine ⟨by decide +kernel, by decide +kernel, by decide +kernel, by decide +kernel, by decide +kernel, by decide +kernel,
    by decide +kernel⟩

end Verif.Props
