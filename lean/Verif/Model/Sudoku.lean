import Verif.Model.FastSolver
import Verif.Model.Positions

/-!
# Model of the `Sudoku` API in `/repo/src/board/sudoku.rs`: cells, solving, construction

A `Sudoku` is its array of 81 bytes.  The functions that run the fast solver take the model's
`fuel` argument (bounds loops and recursion; see `Verif.Props.Solver`).
-/
namespace Verif.Sudoku

open Verif FastSolver

/-- `num_to_opt`, src/board/sudoku.rs lines 803-805. -/
def numToOpt (n : UInt8) : Option UInt8 := if n = 0 then none else some n

/-- `iter`, src/board/sudoku.rs lines 728-730, as the list of its items. -/
def iter (g : Grid) : List (Option UInt8) := g.toList.map numToOpt

/-- `to_bytes`, src/board/sudoku.rs lines 734-736. -/
def toBytes (g : Grid) : Vector UInt8 81 := g

/-- `n_clues`, src/board/sudoku.rs lines 661-663 (`count() as u8`). -/
def nClues (g : Grid) : UInt8 := UInt8.ofNat (g.toList.filter (fun n => n != 0)).length

/-- `FromBytesSliceError`, src/errors.rs lines 12-19. -/
inductive FromBytesSliceError where
  | fromBytes
  | wrongLength (len : Nat)
deriving DecidableEq

/-- `_from_bytes`, src/board/sudoku.rs lines 286-295.  `none` is the error value. -/
def fromBytes (b : Vector UInt8 81) : Option Grid :=
  match b.toList.foldl (fun valid byte => valid && decide (byte ≤ 9)) true with
  | true => some b
  | false => none

/-- `from_bytes_slice`, src/board/sudoku.rs lines 274-282. -/
def fromBytesSlice (b : List UInt8) : Except FromBytesSliceError Grid :=
  if h : b.toArray.size = 81 then
    match fromBytes ⟨b.toArray, h⟩ with
    | some g => .ok g
    | none => .error .fromBytes
  else .error (.wrongLength b.length)

/-- `solutions_up_to_buffer`, src/board/sudoku.rs lines 628-632 and src/solver.rs lines 142-146:
returns the count and the buffer afterwards. -/
def solutionsUpToBuffer (fuel : Nat) (g : Grid) (target : List Grid) (limit : Nat) :
    Res (Nat × List Grid) := do
  match ← runSudoku fuel g limit (.buffer target 0) with
  | .buffer buf n => .ok (n, buf)
  | _ => .panic

/-- `solutions_up_to`, src/board/sudoku.rs lines 618-622 and src/solver.rs lines 134-138. -/
def solutionsUpTo (fuel : Nat) (g : Grid) (limit : Nat) : Res (List Grid) := do
  match ← runSudoku fuel g limit (.vector []) with
  | .vector v => .ok v
  | _ => .panic

/-- `solutions_count_up_to`, src/board/sudoku.rs lines 604-608 and src/solver.rs lines 149-153. -/
def solutionsCountUpTo (fuel : Nat) (g : Grid) (limit : Nat) : Res Nat := do
  .ok (← runSudoku fuel g limit (.count 0)).len

/-- `is_uniquely_solvable`, src/board/sudoku.rs lines 612-614. -/
def isUniquelySolvable (fuel : Nat) (g : Grid) : Res Bool := do
  .ok (decide ((← solutionsCountUpTo fuel g 2) = 1))

/-- `buf[0]`. -/
def firstSlot (buf : List Grid) : Res Grid :=
  match buf with
  | b :: _ => .ok b
  | [] => .panic

/-- `some_solution`, src/board/sudoku.rs lines 571-577. -/
def someSolution (fuel : Nat) (g : Grid) : Res (Option Grid) := do
  let (n, buf) ← solutionsUpToBuffer fuel g [Vector.replicate 81 0] 1
  if n = 1 then .ok (some (← firstSlot buf)) else .ok none

/-- The `for_each` of `solution`, src/board/sudoku.rs lines 584-590: `nums_contained` (`u16`) and
`n_clues` (`i32`, here `Nat`: it is at most 81). -/
def scanClues (g : Grid) : BitVec 16 × Nat :=
  ((iter g).filterMap id).foldl
    (fun (acc : BitVec 16 × Nat) (num : UInt8) => (acc.1 ||| (1#16 <<< num.toNat), acc.2 + 1)) (0#16, 0)

/-- `solution`, src/board/sudoku.rs lines 580-601. -/
def solution (fuel : Nat) (g : Grid) : Res (Option Grid) :=
  let (numsContained, n) := scanClues g
  if n < 17 ∨ Bitset.countOnes numsContained < 8 then .ok none
  else do
    let (n, buf) ← solutionsUpToBuffer fuel g [Vector.replicate 81 0] 2
    if n = 1 then .ok (some (← firstSlot buf)) else .ok none

/-- One iteration of the loop of `is_solved`, src/board/sudoku.rs lines 646-655. `none` is the early
`return false`. -/
def isSolvedStep (g : Grid) (hd : Vector (BitVec 16) 27) (c : Fin 81) : Option (Vector (BitVec 16) 27) :=
  match Pos.digitNewChecked g[c] with
  | none => none
  | some d =>
    let ds := Bitset.asSet 16 (Pos.digitIndex d)
    let hr := Pos.rowHouse (Pos.cellRow c)
    let hc := Pos.colHouse (Pos.cellCol c)
    let hb := Pos.blockHouse (Pos.cellBlock c)
    let hd := hd.set hr (Bitset.union hd[hr] ds)
    let hd := hd.set hc (Bitset.union hd[hc] ds)
    some (hd.set hb (Bitset.union hd[hb] ds))

/-- `is_solved`, src/board/sudoku.rs lines 638-658. -/
def isSolved (g : Grid) : Bool :=
  match (List.finRange 81).foldlM (isSolvedStep g) (Vector.replicate 27 (Bitset.NONE 16)) with
  | none => false
  | some hd => hd == Vector.replicate 27 (Bitset.ALL 16 9)

end Verif.Sudoku
