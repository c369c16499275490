import Verif.Proofs.Bits

/-! The meaning of the lookup tables, established by kernel evaluation over all entries.

A mask of a band has 27 bits; bit `9*r + 3*k + j` is row `r`, block `k`, column `j` of the block.
A "shrunk" mask has 9 bits; bit `3*r + k` is the minirow in row `r` and block `k`. -/
namespace Verif.FastSolver

/-- Check a property of every entry of a table. -/
def tcheck (tbl : List Nat) (n : Nat) (f : Nat → Nat → Bool) : Bool :=
  (List.range n).all fun x => match tbl[x]? with
    | some v => f x v
    | none => false

theorem tcheck_spec {tbl n f} (h : tcheck tbl n f = true) {x : Nat} (hx : x < n) :
    ∃ v, tbl[x]? = some v ∧ f x v = true := by
  have := List.all_eq_true.1 h x (List.mem_range.2 hx)
  split at this
  · next v hv => exact ⟨v, hv, this⟩
  · cases this

/-- The six ways to place a digit once in each row and block of a band. -/
def perms3 : List (Nat × Nat × Nat) :=
  [(0, 1, 2), (0, 2, 1), (1, 0, 2), (1, 2, 0), (2, 0, 1), (2, 1, 0)]

/-- The placement `p` only uses minirows in `x`. -/
def okPerm (x : Nat) (p : Nat × Nat × Nat) : Bool :=
  x.testBit p.1 && x.testBit (3 + p.2.1) && x.testBit (6 + p.2.2)

/-- Block used by placement `p` in row `r`. -/
def permAt (p : Nat × Nat × Nat) : Nat → Nat
  | 0 => p.1
  | 1 => p.2.1
  | _ => p.2.2

/-- Minirow `(r, k)` is used by some placement that is possible in `x`. -/
def inU (x r k : Nat) : Bool := perms3.any fun p => okPerm x p && permAt p r == k

/-- Column `j` is the only possible column of its block in the 9-bit column mask `x`. -/
def onlyCol (x j : Nat) : Bool :=
  x.testBit j && (List.range 3).all fun j' => 3 * (j / 3) + j' == j || !x.testBit (3 * (j / 3) + j')

def all3 (f : Nat → Bool) : Bool := f 0 && f 1 && f 2

theorem all3_spec {f : Nat → Bool} (h : all3 f = true) {i : Nat} (hi : i < 3) : f i = true := by
  simp only [all3, Bool.and_eq_true] at h
  obtain ⟨⟨h0, h1⟩, h2⟩ := h
  match i, hi with
  | 0, _ => exact h0
  | 1, _ => exact h1
  | 2, _ => exact h2

theorem all3_intro {f : Nat → Bool} (h : ∀ i < 3, f i = true) : all3 f = true := by
  simp only [all3, h 0 (by omega), h 1 (by omega), h 2 (by omega), Bool.and_self]

theorem shrink_table : tcheck Tables.shrinkMask 512 (fun x v =>
    decide (v < 8) && all3 fun k =>
      v.testBit k == (x.testBit (3 * k) || x.testBit (3 * k + 1) || x.testBit (3 * k + 2))) = true := by
  decide +kernel

theorem same_table : tcheck Tables.sameBandMask 512 (fun x v =>
    all3 fun r => all3 fun k => all3 fun j =>
      !x.testBit (3 * r + k) || (v.testBit (9 * r + 3 * k + j) == inU x r k)) = true := by
  decide +kernel

theorem neighbor_table : tcheck Tables.neighborBandMask 512 (fun x v =>
    all3 fun r => all3 fun k => all3 fun j =>
      v.testBit (9 * r + 3 * k + j) == !onlyCol x (3 * k + j)) = true := by
  decide +kernel

theorem locked_table : tcheck Tables.lockedMinirows 512 (fun x v =>
    decide (v < 512) && all3 fun r => all3 fun k =>
      v.testBit (3 * r + k) ==
        (inU x r k && all3 fun k' => k' == k || !inU x r k')) = true := by
  decide +kernel

theorem colsingle_table : tcheck Tables.columnSingle 512 (fun x v =>
    decide (v < 512) && all3 fun r => all3 fun k =>
      v.testBit (3 * r + k) ==
        ((all3 fun k' => x.testBit (3 * k') || x.testBit (3 * k' + 1) || x.testBit (3 * k' + 2)) &&
         (onlyCol x (3 * k) || onlyCol x (3 * k + 1) || onlyCol x (3 * k + 2)))) = true := by
  decide +kernel

theorem row_table : tcheck Tables.rowMask 8 (fun x v =>
    all3 fun r => all3 fun k => all3 fun j =>
      v.testBit (9 * r + 3 * k + j) == x.testBit r) = true := by
  decide +kernel

/-- Cells `c`, `c'` of a band conflict for the same digit. -/
def bandConflict (c c' : Nat) : Bool := c / 9 == c' / 9 || c % 9 / 3 == c' % 9 / 3

theorem self_table : tcheck Tables.selfMask 81 (fun x v =>
    (List.range 27).all fun c =>
      v.testBit c == (c == x % 27 || !bandConflict c (x % 27))) = true := by
  decide +kernel

theorem neighborSubbands_table : (List.range 27).all (fun i =>
    match Tables.neighborSubbands[i]? with
    | some (a, b) =>
      a < 27 && b < 27 && a / 3 == i / 3 && b / 3 == i / 3 && a != i && b != i && a != b
    | none => false) = true := by
  decide +kernel

/-- If a row has only one usable minirow, no other row can use its block. -/
theorem inU_unique_block : (List.range 512).all (fun x =>
    all3 fun r => all3 fun k => !(inU x r k && all3 fun k' => k' == k || !inU x r k') ||
      (all3 fun r' => r' == r || !inU x r' k)) = true := by
  decide +kernel

end Verif.FastSolver
