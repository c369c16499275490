import Verif.Spec.Board
import Verif.Model.Res
import Verif.Model.Tables

/-!
# Model of the fast solver, `/repo/src/solver.rs`

Masks are `u32`, modelled as `BitVec 32`.  Every table or array access whose index is computed
goes through a bounds check that yields `panic` (this is the access that the crate feature
`unchecked_indexing` turns into undefined behaviour, lines 897-919).
`debug_assert!`s are modelled as panics as well.
-/
namespace Verif.FastSolver

open Verif

/-- A `u32` mask. -/
abbrev Mask := BitVec 32

/-- `const NONE`, src/solver.rs line 46. -/
def NONE : Mask := 0
/-- `const ALL`, src/solver.rs line 47 (27 ones). -/
def ALL : Mask := 0o777777777
/-- `const LOW9`, src/solver.rs line 48. -/
def LOW9 : Mask := 0o777

/-- Checked read of a lookup table (`UncheckedIndexArray::index`, src/solver.rs lines 896-906). -/
def lookup (tbl : List Nat) (i : Nat) : Res Mask :=
  match tbl[i]? with
  | some v => .ok (BitVec.ofNat 32 v)
  | none => .panic

/-- `nonconflicting_cells_same_band`, src/solver.rs lines 531-545. -/
def nonconflictingCellsSameBand (cell : Nat) : Res Mask := lookup Tables.selfMask cell
/-- `nonconflicting_cells_neighbor_bands`, src/solver.rs lines 549-553. -/
def nonconflictingCellsNeighborBands (cell : Nat) : Mask :=
  ALL ^^^ ((0o001001001 : Mask) <<< (cell % 9))
/-- `shrink_mask`, src/solver.rs lines 562-565. -/
def shrinkMask (m : Mask) : Res Mask := lookup Tables.shrinkMask m.toNat
/-- `nonconflicting_cells_same_band_by_locked_candidates`, src/solver.rs lines 572-575. -/
def sameBandByLocked (shrink : Mask) : Res Mask := lookup Tables.sameBandMask shrink.toNat
/-- `nonconflicting_cells_neighbor_bands_by_locked_candidates`, src/solver.rs lines 579-582. -/
def neighborBandsByLocked (cols : Mask) : Res Mask := lookup Tables.neighborBandMask cols.toNat
/-- `column_single`, src/solver.rs lines 604-607. -/
def columnSingle (cols : Mask) : Res Mask := lookup Tables.columnSingle cols.toNat
/-- `locked_minirows`, src/solver.rs lines 614-617. -/
def lockedMinirows (shrink : Mask) : Res Mask := lookup Tables.lockedMinirows shrink.toNat
/-- `row_mask`, src/solver.rs lines 621-630. -/
def rowMask (rows : Mask) : Res Mask := lookup Tables.rowMask rows.toNat
/-- `neighbor_subbands`, src/solver.rs lines 634-648.  The two indices are used to index
arrays of length 27, so the result carries the bounds check for both. -/
def neighborSubbands (subband : Nat) : Res (Fin 27 × Fin 27) :=
  match Tables.neighborSubbands[subband]? with
  | some (a, b) =>
    if h : a < 27 ∧ b < 27 then .ok (⟨a, h.1⟩, ⟨b, h.2⟩) else .panic
  | none => .panic

/-- `u32::trailing_zeros` restricted to what is needed: position of the lowest set bit among bits
`i, i+1, .., i+n-1`, or `i+n` if there is none. -/
def lowBitFrom (m : Mask) (i : Nat) : Nat → Nat
  | 0 => i
  | n + 1 => if m.getLsbD i then i else lowBitFrom m (i + 1) n

/-- `bit_pos`, src/solver.rs lines 651-654 (`trailing_zeros`, 32 for the zero mask). -/
def bitPos (m : Mask) : Nat := lowBitFrom m 0 32

/-- `*mask & !*mask + 1`, src/solver.rs line 929. -/
def lowestBit (m : Mask) : Mask := m &&& (~~~m + 1)

/-- The items of `mask_iter`, src/solver.rs lines 923-933: `n` bounds the number of items.
A mask has at most 32 set bits, see `maskIter`. -/
def maskIterAux : Nat → Mask → List Mask
  | 0, _ => []
  | n + 1, m => if m = 0 then [] else lowestBit m :: maskIterAux n (m ^^^ lowestBit m)

/-- `mask_iter`, src/solver.rs lines 923-933, as the list of its items. -/
def maskIter (m : Mask) : List Mask := maskIterAux 32 m

/-- `struct SudokuSolver`, src/solver.rs lines 103-112. -/
structure Solver where
  poss : Vector Mask 27
  prev : Vector Mask 27
  unsolved : Vector Mask 3
  weird : Vector Mask 3
  pairs : Vector Mask 3
deriving DecidableEq

/-- The initial value in `from_sudoku`, src/solver.rs lines 118-124. -/
def Solver.init : Solver where
  poss := Vector.replicate 27 ALL
  prev := Vector.replicate 27 0
  unsolved := Vector.replicate 3 ALL
  weird := Vector.replicate 3 ALL
  pairs := Vector.replicate 3 0

/-- `enum Solutions`, src/solver.rs lines 52-56.  `buffer` holds the slots of the caller's slice. -/
inductive Solutions where
  | count (n : Nat)
  | vector (v : List Grid)
  | buffer (buf : List Grid) (len : Nat)
deriving DecidableEq

/-- `Solutions::len`, src/solver.rs lines 59-65. -/
def Solutions.len : Solutions → Nat
  | .count n => n
  | .vector v => v.length
  | .buffer _ n => n

/-- Bitwise-and a mask into one entry of an array: `a[i] &= m`. -/
def andAt {n : Nat} (a : Vector Mask n) (i : Fin n) (m : Mask) : Vector Mask n :=
  a.set i (a[i] &&& m)

/-- Subband of digit `d` (0..8) in band `b`: `digit * 3 + band`. -/
def sb (d : Fin 9) (b : Fin 3) : Fin 27 := ⟨d.val * 3 + b.val, by omega⟩

/-- `while subband < 27 { poss[subband] &= m; subband += 3 }` starting at the band, skipping the
subband `skip` if given.  Lines 331-337 and 486-490. -/
def andBand (poss : Vector Mask 27) (b : Fin 3) (m : Mask) (skip : Option (Fin 27)) :
    Vector Mask 27 :=
  (List.finRange 9).foldl
    (fun p d => if some (sb d b) = skip then p else andAt p (sb d b) m) poss

/-- `insert_candidate`, src/solver.rs lines 461-496.  `num` is the digit `1..9`. -/
def Solver.insertCandidate (s : Solver) (cell : Nat) (num : Nat) : Res Solver := do
  let band := cell / 27
  -- `num as usize - 1` overflows for 0
  Res.assert (decide (1 ≤ num))
  let subband := (num - 1) * 3 + band
  let cellMask := (1 : Mask) <<< (cell % 27)
  -- bounds checks of `self.poss_cells[subband]` and `self.unsolved_cells[band]`
  if h : subband < 27 ∧ band < 3 then
    let sbi : Fin 27 := ⟨subband, h.1⟩
    let b : Fin 3 := ⟨band, h.2⟩
    if s.poss[sbi] &&& cellMask = NONE then .err
    else
      let unsolved := andAt s.unsolved b (~~~cellMask)
      let poss := andAt s.poss sbi (← nonconflictingCellsSameBand cell)
      let other := nonconflictingCellsNeighborBands cell
      let (ns1, ns2) ← neighborSubbands subband
      let poss := andAt poss ns1 other
      let poss := andAt poss ns2 other
      let poss := andBand poss b (~~~cellMask) none
      let poss := poss.set sbi (poss[sbi] ||| cellMask)
      .ok { s with poss := poss, unsolved := unsolved }
  else .panic

/-- `from_sudoku`, src/solver.rs lines 117-131. -/
def fromSudoku (g : Grid) : Res Solver :=
  (List.finRange 81).foldlM
    (fun s (c : Fin 81) => if g[c] = 0 then .ok s else s.insertCandidate c g[c].toNat) Solver.init

/-- `is_solved`, src/solver.rs lines 167-169. -/
def Solver.isSolved (s : Solver) : Bool := s.unsolved = Vector.replicate 3 NONE

/-- `insert_candidate_by_mask`, src/solver.rs lines 505-513.  The `debug_assert!`s are checked. -/
def Solver.insertCandidateByMask (s : Solver) (sbi : Fin 27) (mask : Mask) : Res Solver := do
  -- debug_assert!(mask.count_ones() == 1)
  Res.assert (decide ((maskIter mask).length = 1))
  Res.assert (decide (s.poss[sbi] &&& mask ≠ 0))
  let band := sbi.val % 3
  let cell := band * 27 + bitPos mask
  let m ← nonconflictingCellsSameBand cell
  .ok { s with poss := andAt s.poss sbi m }

/-- One band of the scan for cells with at least 1, 2, 3 candidates: lines 202-214. -/
def scanBand (poss : Vector Mask 27) (b : Fin 3) : Mask × Mask × Mask :=
  (List.finRange 9).foldl
    (fun (c1, c2, c3) d =>
      let m := poss[sb d b]
      (c1 ||| m, c2 ||| (c1 &&& m), c3 ||| (c2 &&& m))) (NONE, NONE, NONE)

/-- The inner digit loop for one single: lines 229-236. -/
def Solver.applySingle (s : Solver) (b : Fin 3) (mask : Mask) : Res Solver :=
  match (List.finRange 9).find? (fun d => decide (s.poss[sb d b] &&& mask ≠ NONE)) with
  | some d => s.insertCandidateByMask (sb d b) mask
  | none => .err

/-- One iteration of the band loop of `find_naked_singles`: lines 201-238. -/
def Solver.nakedSinglesBand (st : Solver × Bool) (b : Fin 3) : Res (Solver × Bool) := do
  let (s, applied) := st
  let (c1, c2, c3) := scanBand s.poss b
  if c1 ≠ ALL then .err
  else
    let s := { s with pairs := s.pairs.set b (c2 ^^^ c3) }
    let singles := (c1 ^^^ c2) &&& s.unsolved[b]
    let s' ← (maskIter singles).foldlM (fun s m => s.applySingle b m) s
    .ok (s', applied || !(maskIter singles).isEmpty)

/-- `find_naked_singles`, src/solver.rs lines 197-241.  The boolean is `single_applied`. -/
def Solver.findNakedSingles (s : Solver) : Res (Solver × Bool) :=
  (List.finRange 3).foldlM Solver.nakedSinglesBand (s, false)

/-- `_find_locked_candidates_and_update`, src/solver.rs lines 282-340. -/
def Solver.update (s : Solver) (i : Fin 27) : Res Solver := do
  let old := s.poss[i]
  let sh0 ← shrinkMask (old &&& LOW9)
  let sh1 ← shrinkMask ((old >>> 9) &&& LOW9)
  let sh2 ← shrinkMask (old >>> 18)
  let shrink := sh0 ||| (sh1 <<< 3) ||| (sh2 <<< 6)
  let poss := old &&& (← sameBandByLocked shrink)
  if poss = NONE then .err
  else
    let prev' := s.prev.set i poss
    let p := s.poss.set i poss
    let possCols := (poss ||| (poss >>> 9) ||| (poss >>> 18)) &&& LOW9
    let other ← neighborBandsByLocked possCols
    let (ns1, ns2) ← neighborSubbands i
    let p := andAt p ns1 other
    let p := andAt p ns2 other
    let locked := (← lockedMinirows shrink) &&& (← columnSingle possCols)
    let solvedRows ← shrinkMask locked
    let solvedCells := (← rowMask solvedRows) &&& poss
    let b : Fin 3 := ⟨i.val % 3, by omega⟩
    let nonconflicting := ~~~solvedCells
    let unsolved := andAt s.unsolved b nonconflicting
    let p := andBand p b nonconflicting (some i)
    .ok { s with poss := p, prev := prev', unsolved := unsolved }

/-- One step of the `unroll!` loop over the 27 subbands: lines 255-270.
The boolean is `found_nothing`. -/
def Solver.updateStep (st : Solver × Bool) (i : Fin 27) : Res (Solver × Bool) := do
  let (s, foundNothing) := st
  if (s.weird[0] >>> (i.val / 3)) &&& LOW9 ≠ NONE ∧ s.poss[i] ≠ s.prev[i] then
    let s ← s.update i
    .ok (s, false)
  else .ok (s, foundNothing)

/-- `find_locked_candidates_and_update`, src/solver.rs lines 248-277.  `fuel` bounds the number of
passes of the outer `loop`. -/
def Solver.findLocked : Nat → Solver → Res Solver
  | 0, _ => .timeout
  | fuel + 1, s => do
    let (s, foundNothing) ← (List.finRange 27).foldlM Solver.updateStep (s, true)
    if foundNothing then .ok s else Solver.findLocked fuel s

/-- The `loop` of `_solve`, src/solver.rs lines 179-189.  `fuel` bounds the number of rounds;
`fuel0` is the fuel given to each call of `findLocked`. -/
def Solver.solveLoop (fuel0 : Nat) : Nat → Solver → Res Solver
  | 0, _ => .timeout
  | fuel + 1, s => do
    let s ← s.findLocked fuel0
    if s.isSolved then .ok s
    else
      let (s, applied) ← s.findNakedSingles
      if applied then Solver.solveLoop fuel0 fuel s else .ok s

/-- `_solve`, src/solver.rs lines 174-190.  `n` is `solutions.len()`. -/
def Solver.solve (fuel : Nat) (s : Solver) (limit n : Nat) : Res Solver := do
  Res.assert (decide (n ≤ limit))
  if n = limit then .err else s.solveLoop fuel fuel

/-- Checked write to an array of 81 cells. -/
def setCell (g : Grid) (i : Nat) (v : UInt8) : Res Grid :=
  if h : i < 81 then .ok (g.set i v) else .panic

/-- `extract_solution`, src/solver.rs lines 516-528. -/
def Solver.extractSolution (s : Solver) : Res Grid :=
  (List.finRange 27).foldlM
    (fun g i =>
      (maskIter s.poss[i]).foldlM
        (fun g m => setCell g (bitPos m + i.val % 3 * 27) (UInt8.ofNat (i.val / 3) + 1)) g)
    (Vector.replicate 81 0)

/-- Storing one found solution: the `match` in `guess`, src/solver.rs lines 346-355. -/
def Solver.record (s : Solver) : Solutions → Res Solutions
  | .count n => .ok (.count (n + 1))
  | .vector v => do .ok (.vector (v ++ [← s.extractSolution]))
  | .buffer buf len => do
    if len < buf.length then .ok (.buffer (buf.set len (← s.extractSolution)) (len + 1))
    else .ok (.buffer buf (len + 1))

/-- `if solver._solve(limit, solutions).is_ok() { solver.guess(limit, solutions) }`,
lines 390-392, 396-398 and 446-448, with `rec` standing for the recursive call of `guess`. -/
def Solver.solveThen (fuel : Nat) (rec : Solver → Solutions → Res Solutions)
    (s : Solver) (limit : Nat) (acc : Solutions) : Res Solutions :=
  match s.solve fuel limit acc.len with
  | .ok s' => rec s' acc
  | .err => .ok acc
  | .panic => .panic
  | .timeout => .timeout

/-- The digit loop of `guess_bivalue_in_cell` for one bivalue cell, src/solver.rs lines 383-410:
`n` digits are left, starting with `subband`.  The Rust `loop` has no upper bound; running past
subband 26 is an out-of-bounds access, i.e. `panic`. -/
def Solver.bivalueLoop (fuel : Nat) (rec : Solver → Solutions → Res Solutions) (limit : Nat)
    (cellMask : Mask) : Nat → Solver → Nat → Bool → Solutions → Res Solutions
  | 0, _, _, _, _ => .panic
  | n + 1, s, subband, first, acc =>
    if h : subband < 27 then
      let i : Fin 27 := ⟨subband, h⟩
      if s.poss[i] &&& cellMask ≠ NONE then
        if first then do
          let solver ← s.insertCandidateByMask i cellMask
          let acc ← solver.solveThen fuel rec limit acc
          let s := { s with poss := s.poss.set i (s.poss[i] ^^^ cellMask) }
          Solver.bivalueLoop fuel rec limit cellMask n s (subband + 3) false acc
        else do
          let s ← s.insertCandidateByMask i cellMask
          s.solveThen fuel rec limit acc
      else Solver.bivalueLoop fuel rec limit cellMask n s (subband + 3) first acc
    else .panic

/-- `guess_bivalue_in_cell`, src/solver.rs lines 368-412.  `none` is `Ok(())` (no pair found,
nothing changed), `some acc` is `Err(Unsolvable)` with the solutions found. -/
def Solver.guessBivalue (fuel : Nat) (rec : Solver → Solutions → Res Solutions)
    (s : Solver) (limit : Nat) (acc : Solutions) : List (Fin 3) → Res (Option Solutions)
  | [] => .ok none
  | b :: bs =>
    match maskIter s.pairs[b] with
    | [] => Solver.guessBivalue fuel rec s limit acc bs
    | m :: _ => do .ok (some (← Solver.bivalueLoop fuel rec limit m 10 s b.val true acc))

/-- Number of candidates of a cell: lines 425-428. -/
def Solver.candCount (s : Solver) (b : Fin 3) (mask : Mask) : Nat :=
  ((List.finRange 9).filter (fun d => decide (s.poss[sb d b] &&& mask ≠ NONE))).length

/-- Rust's order on the tuple `(n_candidates, band, one_unsolved_cell)`. -/
def guessLe (x y : Nat × Fin 3 × Mask) : Bool :=
  if x.1 ≠ y.1 then x.1 < y.1
  else if x.2.1 ≠ y.2.1 then x.2.1 < y.2.1
  else x.2.2.toNat ≤ y.2.2.toNat

/-- `best_guess`, src/solver.rs lines 421-432 (`Iterator::min` keeps the first minimum). -/
def Solver.bestGuess (s : Solver) : Option (Nat × Fin 3 × Mask) :=
  (List.finRange 3).foldl
    (fun best b =>
      match maskIter s.unsolved[b] with
      | [] => best
      | m :: _ =>
        let x := (s.candCount b m, b, m)
        match best with
        | none => some x
        | some y => if guessLe y x then some y else some x) none

/-- The digit loop of `guess_some_cell`, src/solver.rs lines 440-456. -/
def Solver.someCellLoop (fuel : Nat) (rec : Solver → Solutions → Res Solutions) (limit : Nat)
    (b : Fin 3) (cell : Mask) : List (Fin 9) → Solver → Solutions → Res Solutions
  | [], _, acc => .ok acc
  | d :: ds, s, acc =>
    let i := sb d b
    if s.poss[i] &&& cell ≠ NONE then do
      let solver ← s.insertCandidateByMask i cell
      let acc ← solver.solveThen fuel rec limit acc
      if acc.len = limit then .ok acc
      else
        let s := { s with poss := s.poss.set i (s.poss[i] ^^^ cell) }
        Solver.someCellLoop fuel rec limit b cell ds s acc
    else Solver.someCellLoop fuel rec limit b cell ds s acc

/-- `guess_some_cell`, src/solver.rs lines 420-457. -/
def Solver.guessSomeCell (fuel : Nat) (rec : Solver → Solutions → Res Solutions)
    (s : Solver) (limit : Nat) (acc : Solutions) : Res Solutions :=
  match s.bestGuess with
  | none => .ok acc
  | some (_, b, m) => Solver.someCellLoop fuel rec limit b m (List.finRange 9) s acc

/-- `guess`, src/solver.rs lines 343-361.  The second argument bounds the recursion depth. -/
def Solver.guess (fuel : Nat) : Nat → Solver → Nat → Solutions → Res Solutions
  | 0, _, _, _ => .timeout
  | depth + 1, s, limit, acc =>
    let rec' := fun s acc => Solver.guess fuel depth s limit acc
    if s.isSolved then do
      Res.assert (decide (acc.len < limit))
      s.record acc
    else do
      match ← Solver.guessBivalue fuel rec' s limit acc (List.finRange 3) with
      | some acc => .ok acc
      | none => Solver.guessSomeCell fuel rec' s limit acc

/-- `_solutions_up_to`, src/solver.rs lines 155-165. -/
def Solver.run (fuel : Nat) (s : Solver) (limit : Nat) (acc : Solutions) : Res Solutions :=
  match s.findNakedSingles with
  | .err => .ok acc
  | .panic => .panic
  | .timeout => .timeout
  | .ok (s, _) => s.solveThen fuel (fun s acc => Solver.guess fuel fuel s limit acc) limit acc

/-- `SudokuSolver::from_sudoku(self).ok().map_or(default, |solver| solver._solutions_up_to(..))`,
the shape shared by src/board/sudoku.rs lines 604-608, 618-622 and 628-632. -/
def runSudoku (fuel : Nat) (g : Grid) (limit : Nat) (acc : Solutions) : Res Solutions :=
  match fromSudoku g with
  | .err => .ok acc
  | .panic => .panic
  | .timeout => .timeout
  | .ok s => s.run fuel limit acc

end Verif.FastSolver
