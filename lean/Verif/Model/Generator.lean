import Verif.Model.Candidate
import Verif.Model.Generate

/-!
# Model of `/repo/src/generator.rs`: randomized generation of completed grids

* The random number generator is a stream of natural numbers; `gen_range(0..n)` takes the next one modulo `n`.
  Every sequence of outcomes is given by some stream.  `perm.shuffle(rng)` yields some permutation of `1..9`, which
  is an argument.
* `stack: Vec<Candidate>` is a list whose head is the last element of the vector (`push` and `pop` act on the head).
* The `u8` counter `n_solved_cells` is a natural number with the overflow check made explicit.
-/
namespace Verif.Generator

open Verif

/-- A stream of random numbers. -/
abbrev Rng := Nat → Nat

/-- `rng.gen_range(0..n)`: panics on the empty range. -/
def genRange (rng : Rng) (n : Nat) : Res (Nat × Rng) :=
  if n = 0 then .panic else .ok (rng 0 % n, fun k => rng (k + 1))

/-- `SudokuGenerator`, src/generator.rs lines 15-21. -/
structure Gen where
  grid : Grid
  nSolved : Nat
  poss : Vector DigitSet 81
  house : Vector DigitSet 27
  last : Nat

/-- `new`, src/generator.rs lines 25-33. -/
def Gen.new : Gen where
  grid := Vector.replicate 81 0
  nSolved := 0
  poss := Vector.replicate 81 (Bitset.ALL 16 9)
  house := Vector.replicate 27 (Bitset.NONE 16)
  last := 0

/-- `self.house_solved_digits[house] |= digits`. -/
def orHouse (house : Vector DigitSet 27) (h : Fin 27) (d : DigitSet) : Vector DigitSet 27 :=
  house.set h (Bitset.union house[h] d)

/-- `_insert_entry`, src/generator.rs lines 36-43. -/
def Gen.insertEntry (s : Gen) (e : Candidate) : Res Gen := do
  Res.assert (decide (s.nSolved < 255))
  let house := orHouse s.house e.row e.digitSet
  let house := orHouse house e.col e.digitSet
  let house := orHouse house e.block e.digitSet
  .ok { s with nSolved := s.nSolved + 1, grid := s.grid.set e.cell e.digit.get,
               poss := s.poss.set e.cell (Bitset.NONE 16), house := house }

/-- `remove_impossibilities`, src/generator.rs lines 224-235. -/
def Gen.removeImpossibilities (s : Gen) (cell : Fin 81) (impossible : DigitSet) (stack : List Candidate) :
    Res (Gen × List Candidate) := do
  let mask := Bitset.without s.poss[cell] impossible
  let s := { s with poss := s.poss.set cell mask }
  match ← Bitset.uniqueItem 9 mask with
  | .error () => .err
  | .ok none => .ok (s, stack)
  | .ok (some digit) => .ok (s, ⟨cell, digit⟩ :: stack)

/-- The loop over the neighbours, src/generator.rs lines 74-78. -/
def Gen.removeFromNeighbors (s : Gen) (mask : DigitSet) (stack : List Candidate) (cells : List (Fin 81)) :
    Res (Gen × List Candidate) :=
  cells.foldlM (fun (st : Gen × List Candidate) cell =>
    if Bitset.overlaps mask st.1.poss[cell] then st.1.removeImpossibilities cell mask st.2 else .ok st) (s, stack)

/-- `insert_entries_singly`, src/generator.rs lines 60-86. -/
def Gen.insertSingly : Nat → Gen → List Candidate → Res (Gen × List Candidate)
  | 0, _, _ => .timeout
  | _ + 1, s, [] => .ok (s, [])
  | fuel + 1, s, entry :: stack =>
    if Bitset.isEmpty s.poss[entry.cell] then Gen.insertSingly fuel s stack
    else if Bitset.isEmpty (Bitset.inter s.poss[entry.cell] entry.digitSet) then .err
    else do
      let s ← s.insertEntry entry
      let (s, stack) ← s.removeFromNeighbors entry.digitSet stack (Pos.neighbors entry.cell)
      if stack.length > 4 then .ok (s, stack) else Gen.insertSingly fuel s stack

/-- The first loop of `batch_insert_entries`, src/generator.rs lines 89-112. -/
def Gen.batchInsert (s : Gen) (entries : List Candidate) : Res Gen :=
  entries.foldlM (fun (s : Gen) entry =>
    if Bitset.isEmpty s.poss[entry.cell] then .ok s
    else if Bitset.overlaps s.house[entry.row] entry.digitSet
        || Bitset.overlaps s.house[entry.col] entry.digitSet
        || Bitset.overlaps s.house[entry.block] entry.digitSet then .err
    else s.insertEntry entry) s

/-- The digits entered in the houses of a cell, src/generator.rs lines 119-121. -/
def Gen.housesMask (s : Gen) (cell : Fin 81) : DigitSet :=
  Bitset.union (Bitset.union s.house[Pos.rowHouse (Pos.cellRow cell)] s.house[Pos.colHouse (Pos.cellCol cell)])
    s.house[Pos.blockHouse (Pos.cellBlock cell)]

/-- The second loop of `batch_insert_entries`, src/generator.rs lines 115-124. -/
def Gen.refresh (s : Gen) (cells : List (Fin 81)) (stack : List Candidate) : Res (Gen × List Candidate) :=
  cells.foldlM (fun (st : Gen × List Candidate) cell =>
    if Bitset.isEmpty st.1.poss[cell] then .ok st
    else st.1.removeImpossibilities cell (st.1.housesMask cell) st.2) (s, stack)

/-- `batch_insert_entries`, src/generator.rs lines 88-126; `drain(..)` goes through the vector from its start and
leaves it empty. -/
def Gen.batch (s : Gen) (stack : List Candidate) : Res (Gen × List Candidate) := do
  let s ← s.batchInsert stack.reverse
  s.refresh (List.finRange 81) []

/-- `insert_entries`, src/generator.rs lines 46-54.  On success the stack is empty. -/
def Gen.insertEntries (fuel0 : Nat) : Nat → Gen → List Candidate → Res Gen
  | 0, _, _ => .timeout
  | fuel + 1, s, stack =>
    if stack.length = 0 then .ok s
    else if stack.length ≤ 4 then do
      let (s, stack) ← s.insertSingly fuel0 stack
      Gen.insertEntries fuel0 fuel s stack
    else do
      let (s, stack) ← s.batch stack
      Gen.insertEntries fuel0 fuel s stack

/-- `is_solved`, src/generator.rs lines 129-131. -/
def Gen.isSolved (s : Gen) : Bool := s.nSolved == 81

/-- The first loop over the cells of a house in `find_hidden_singles`, src/generator.rs lines 140-144:
`(unsolved, multiple_unsolved)`. -/
def Gen.houseScan (s : Gen) (cells : List (Fin 81)) : DigitSet × DigitSet :=
  cells.foldl (fun acc cell =>
    (Bitset.union acc.1 s.poss[cell], Bitset.union acc.2 (Bitset.inter acc.1 s.poss[cell])))
    (Bitset.NONE 16, Bitset.NONE 16)

/-- The second loop over the cells of a house, src/generator.rs lines 154-171. -/
def Gen.houseSingles (s : Gen) : List (Fin 81) → DigitSet → List Candidate → Res (List Candidate)
  | [], _, stack => .ok stack
  | cell :: cells, singles, stack => do
    match ← Bitset.uniqueItem 9 (Bitset.inter s.poss[cell] singles) with
    | .error () => Gen.houseSingles s cells singles stack
    | .ok none => .err
    | .ok (some digit) =>
      let stack := ⟨cell, digit⟩ :: stack
      let singles := Bitset.without singles (Bitset.asSet 16 digit.val)
      if Bitset.isEmpty singles then .ok stack else Gen.houseSingles s cells singles stack

/-- `find_hidden_singles`, src/generator.rs lines 134-176. -/
def Gen.findHiddenSingles (s : Gen) : List (Fin 27) → List Candidate → Res (List Candidate)
  | [], stack => .ok stack
  | house :: houses, stack => do
    let cells ← Bitset.items 81 (Pos.houseCells house)
    let (unsolved, multiple) := s.houseScan cells
    if Bitset.union unsolved s.house[house] ≠ Bitset.ALL 16 9 then .err
    else
      let singles := Bitset.without unsolved multiple
      if Bitset.isEmpty singles then Gen.findHiddenSingles s houses stack
      else s.houseSingles cells singles stack

/-- The loop of `find_cell_min_poss`, src/generator.rs lines 186-205: returns `best_cell` and the final `cell`. -/
def Gen.minLoop (s : Gen) : Nat → Nat → Nat → Nat → Res (Nat × Nat)
  | 0, _, _, _ => .timeout
  | fuel + 1, cell, minPoss, best =>
    if h : cell < 81 then
      let n := (Bitset.len s.poss[cell]).toNat
      let better := decide (n > 0 ∧ n < minPoss)
      let best := if better then cell else best
      let minPoss := if better then n else minPoss
      if (better && n == 2) || cell == s.last then .ok (best, cell)
      else Gen.minLoop s fuel (if cell = 80 then 0 else cell + 1) minPoss best
    else .panic

/-- `find_cell_min_poss`, src/generator.rs lines 181-208. -/
def Gen.findCellMinPoss (s : Gen) : Res (Fin 81 × Gen) := do
  let (best, cell) ← s.minLoop 82 ((s.last + 1) % 81) 10 100
  .ok (← Bitset.toFin 81 best, { s with last := cell })

/-- `find_good_random_guess`, src/generator.rs lines 211-220. -/
def Gen.findGuess (s : Gen) (rng : Rng) : Res (Candidate × Gen × Rng) := do
  let (cell, s) ← s.findCellMinPoss
  let poss := s.poss[cell]
  let (choice, rng) ← genRange rng (Bitset.len poss).toNat
  match (← Bitset.items 9 poss)[choice]? with
  | some digit => .ok (⟨cell, digit⟩, s, rng)
  | none => .panic

/-- `randomized_solve_one`, src/generator.rs lines 239-267.  `none` is `Err(Unsolvable)`; the state of the random
number generator is returned in both cases.  `fuel` bounds loop rounds and recursion depth. -/
def Gen.solveOne (fuel0 : Nat) : Nat → Gen → List Candidate → Rng → Res (Option Grid × Rng)
  | 0, _, _, _ => .timeout
  | fuel + 1, s, stack, rng =>
    match s.insertEntries fuel0 fuel0 stack with
    | .panic => .panic
    | .timeout => .timeout
    | .err => .ok (none, rng)
    | .ok s =>
      if s.isSolved then .ok (some s.grid, rng)
      else
        match s.findHiddenSingles (List.finRange 27) [] with
        | .panic => .panic
        | .timeout => .timeout
        | .err => .ok (none, rng)
        | .ok (e :: stack) => Gen.solveOne fuel0 fuel s (e :: stack) rng
        | .ok [] => do
          let (entry, s, rng) ← s.findGuess rng
          let (result, rng) ← Gen.solveOne fuel0 fuel s [entry] rng
          match result with
          | some g => .ok (some g, rng)
          | none =>
            match s.removeImpossibilities entry.cell entry.digitSet [] with
            | .panic => .panic
            | .timeout => .timeout
            | .err => .ok (none, rng)
            | .ok (s, stack) => Gen.solveOne fuel0 fuel s stack rng

/-- `(0..9).zip(perm.iter()).map(|(cell, &digit)| Candidate::new(cell, digit))` collected into the stack,
src/generator.rs lines 276-280 (the last candidate is on top). -/
def initialStack (perm : List Nat) : Res (List Candidate) := do
  let l ← ((List.range 9).zip perm).mapM (fun x => Candidate.new x.1 x.2)
  .ok l.reverse

/-- `generate_solved`, src/generator.rs lines 269-283, for the shuffled digits `perm` and the random numbers drawn
afterwards. -/
def generateSolved (fuel : Nat) (perm : List Nat) (rng : Rng) : Res (Grid × Rng) := do
  let stack ← initialStack perm
  match ← Gen.solveOne fuel fuel Gen.new stack rng with
  | (some g, rng) => .ok (g, rng)
  | (none, _) => .panic

/-- `Sudoku::generate_with_symmetry`, src/board/sudoku.rs lines 194-196: generate a completed grid (`generate_solved`,
lines 171-178), then remove cells in the random order `order`. -/
def generateWithSymmetry (fuel : Nat) (symmetry : Sudoku.Symmetry) (perm : List Nat) (rng : Rng) (order : List Nat) :
    Res Grid := do
  let (g, _) ← generateSolved fuel perm rng
  Sudoku.generateWithSymmetryFrom fuel g symmetry order

/-- `Sudoku::generate`, src/board/sudoku.rs lines 185-187. -/
def generate (fuel : Nat) (perm : List Nat) (rng : Rng) (order : List Nat) : Res Grid :=
  generateWithSymmetry fuel .halfRotation perm rng order

end Verif.Generator
