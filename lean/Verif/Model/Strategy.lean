import Verif.Model.Candidate

/-!
# Model of `/repo/src/strategy/`: the solver that applies human strategies

* `Vec<Candidate>` and `Vec<Deduction>` are lists in the order of the vector (`push` appends at the end).
* A method taking `&mut self` and returning `Result<(), Unsolvable>` is a function to `Res (Solver × Bool)`: the
  changed solver together with `true` for `Ok(())` and `false` for `Err(Unsolvable)`; what was changed before an error
  stays changed.  A method returning `bool` likewise gives the changed solver and that Boolean.
* The `u16` counters are natural numbers; `+= 1` checks the overflow, the cast `as u16` of a length reduces it modulo
  `65536`.  Slicing checks the bounds.
* A set iterator (`SetIter`) is the list of the elements that are still to come.
* Not modelled: the field `clues` (it is stored and never read), the Boolean result of `try_solve` (it is never used),
  and the commented-out `find_singles_chain`.  `print_grid_state` is in `Model/Print.lean`; the files
  `almost_locked_sets.rs`, `avoidable_rectangles.rs` and `utils.rs`, none of whose functions is called, are in
  `Model/AlmostLocked.lean`, `Model/Rectangles.lean` and `Model/Links.lean`.
-/
namespace Verif.Strat

open Verif

/-- `Set<Position<House>>` and `Set<Position<Line>>`, src/bitset.rs lines 298-301 (`u16`). -/
abbrev PosSet := BitVec 16
/-- `Set<Line>`, src/bitset.rs line 292 (`u32`). -/
abbrev LineSet := BitVec 32
/-- `Set<House>`, src/bitset.rs line 293 (`u32`). -/
abbrev HouseSet := BitVec 32

/-- `Strategy`, src/strategy/strategies.rs lines 23-44. -/
inductive Strategy where
  | nakedSingles | hiddenSingles | lockedCandidates | nakedPairs | nakedTriples | nakedQuads
  | hiddenPairs | hiddenTriples | hiddenQuads | xWing | swordfish | jellyfish | xyWing | xyzWing
  | mutantSwordfish | mutantJellyfish | avoidableRectangles
deriving DecidableEq, Repr

/-- `Deduction<T>`, src/strategy/deduction.rs lines 62-128. -/
inductive Deduction (T : Type) where
  | nakedSingles (c : Candidate)
  | hiddenSingles (c : Candidate) (house : Pos.HouseType)
  | lockedCandidates (digit : Digit) (miniline : Fin 54) (isPointing : Bool) (conflicts : T)
  | subsets (house : Fin 27) (positions : PosSet) (digits : DigitSet) (conflicts : T)
  | basicFish (digit : Digit) (lines : LineSet) (positions : PosSet) (conflicts : T)
  | fish (digit : Digit) (base cover : HouseSet) (conflicts : T)
  | wing (hinge : Fin 81) (hingeDigits : DigitSet) (pincers : Pos.Cells) (conflicts : T)
  | avoidableRectangle (lines : LineSet) (conflicts : T)

/-- `_Deduction`, with a range of indices into the eliminated entries: src/strategy/solver.rs lines 11-12. -/
abbrev RangeDeduction := Deduction (Nat × Nat)

/-- `StrategySolver`, src/strategy/solver.rs lines 37-65, with `State` (lines 1151-1156) spread over the fields:
`cp` is `cell_poss_digits`, `hs` is `house_solved_digits`, `hp` is `house_poss_positions`; the suffixes `Next` and
`Elim` stand for `next_deduced` and `last_eliminated`. -/
structure Solver where
  deductions : List RangeDeduction
  deduced : List Candidate
  eliminated : List Candidate
  nSolved : Nat
  lastHouse : Nat
  grid : Grid
  cp : Vector DigitSet 81
  cpNext : Nat
  cpElim : Nat
  hs : Vector DigitSet 27
  hsNext : Nat
  hp : Vector (Vector PosSet 9) 27
  hpNext : Nat
  hpElim : Nat

/-- `empty`, src/strategy/solver.rs lines 68-81. -/
def Solver.empty : Solver where
  deductions := []
  deduced := []
  eliminated := []
  nSolved := 0
  lastHouse := 0
  grid := Vector.replicate 81 0
  cp := Vector.replicate 81 (Bitset.ALL 16 9)
  cpNext := 0
  cpElim := 0
  hs := Vector.replicate 27 (Bitset.NONE 16)
  hsNext := 0
  hp := Vector.replicate 27 (Vector.replicate 9 (Bitset.ALL 16 9))
  hpNext := 0
  hpElim := 0

/-- `from_sudoku`, src/strategy/solver.rs lines 84-95; `Sudoku::iter` gives `None` for `0`.
`from_sudoku_and_clues` (lines 99-104) differs only in the unused field `clues`. -/
def Solver.fromSudoku (sudoku : Grid) : Res Solver := do
  let l ← ((List.finRange 81).filter (fun c => sudoku[c] ≠ 0)).mapM (fun c => Candidate.new c.val sudoku[c].toNat)
  .ok { Solver.empty with deduced := l }

/-- `CellState`, src/board/cell_state.rs lines 7-10. -/
inductive CellState where
  | digit (d : Digit)
  | candidates (cands : DigitSet)
deriving DecidableEq

/-- `from_grid_state`, src/strategy/solver.rs lines 110-130. -/
def Solver.fromGridState (grid : Vector CellState 81) : Res Solver := do
  let (entries, eliminated) ← (List.finRange 81).foldlM (fun (acc : List Candidate × List Candidate) cell =>
    match grid[cell] with
    | .digit d => .ok (acc.1 ++ [⟨cell, d⟩], acc.2)
    | .candidates cands => do
      let digits ← Bitset.items 9 (Bitset.compl 9 cands)
      .ok (acc.1, acc.2 ++ digits.map (fun d => ⟨cell, d⟩))) ([], [])
  .ok { Solver.empty with deduced := entries, eliminated := eliminated }

/-- `update_grid`, src/strategy/solver.rs lines 231-235. -/
def Solver.updateGrid (s : Solver) : Solver :=
  { s with grid := s.deduced.foldl (fun (g : Grid) e => g.set e.cell e.digit.get) s.grid }

/-- `is_solved`, src/strategy/solver.rs lines 287-289. -/
def Solver.isSolved (s : Solver) : Bool := s.nSolved == 81

/-- `push_new_candidate`, src/strategy/solver.rs lines 602-628. -/
def Solver.pushNewCandidate (s : Solver) (e : Candidate) (strategy : RangeDeduction) : Res (Solver × Bool) :=
  match strategy with
  | .nakedSingles _ | .hiddenSingles _ _ =>
    let old := s.grid[e.cell]
    if old = e.digit.get then .ok (s, true)
    else if old = 0 then
      .ok ({ s with grid := s.grid.set e.cell e.digit.get, deduced := s.deduced ++ [e],
                    deductions := s.deductions ++ [strategy] }, true)
    else .ok (s, false)
  | _ => .panic

/-- `remove_impossibilities`, src/strategy/solver.rs lines 573-600. -/
def Solver.removeImpossibilities (s : Solver) (cell : Fin 81) (impossible : DigitSet) (findNaked : Bool) :
    Res (Solver × Bool) := do
  let mask := Bitset.without s.cp[cell] impossible
  let s := { s with cp := s.cp.set cell mask }
  if findNaked then
    match ← Bitset.uniqueItem 9 mask with
    | .error () => .ok (s, false)
    | .ok none => .ok (s, true)
    | .ok (some d) => s.pushNewCandidate ⟨cell, d⟩ (.nakedSingles ⟨cell, d⟩)
  else .ok (s, !Bitset.isEmpty mask)

/-- A loop `for x in xs { f(x)?; }`.  With `early := false` the errors are ignored. -/
def tryEach {α : Type} (f : Solver → α → Res (Solver × Bool)) (early : Bool) : List α → Solver → Res (Solver × Bool)
  | [], s => .ok (s, true)
  | x :: xs, s => do
    let (s, ok) ← f s x
    if early && !ok then .ok (s, false) else tryEach f early xs s

/-- A loop `for x in xs { if f(x) { break; } }`; the Boolean says whether it was left by `break`. -/
def forUntil {α : Type} (f : Solver → α → Res (Solver × Bool)) : List α → Solver → Res (Solver × Bool)
  | [], s => .ok (s, false)
  | x :: xs, s => do
    let (s, stop) ← f s x
    if stop then .ok (s, true) else forUntil f xs s

/-- `f()?; g()`. -/
def andThen (x : Res (Solver × Bool)) (f : Solver → Res (Solver × Bool)) : Res (Solver × Bool) := do
  let (s, ok) ← x
  if ok then f s else .ok (s, false)

/-- `*ld_cp += 1; *ld_zs += 1;`, src/strategy/solver.rs lines 418-419 and 485-486. -/
def Solver.advance (s : Solver) : Res Solver := do
  Res.assert (decide (s.cpNext < 65535))
  Res.assert (decide (s.hsNext < 65535))
  .ok { s with cpNext := s.cpNext + 1, hsNext := s.hsNext + 1 }

/-- `house_solved_digits[house] |= digits`. -/
def orHouse (hs : Vector DigitSet 27) (h : Fin 27) (d : DigitSet) : Vector DigitSet 27 :=
  hs.set h (Bitset.union hs[h] d)

/-- `_insert_candidate_cp_zs`, src/strategy/solver.rs lines 460-471. -/
def Solver.insertCandidateCpZs (s : Solver) (e : Candidate) : Res Solver := do
  Res.assert (decide (s.nSolved < 255))
  let hs := orHouse s.hs e.row e.digitSet
  let hs := orHouse hs e.col e.digitSet
  let hs := orHouse hs e.block e.digitSet
  .ok { s with nSolved := s.nSolved + 1, cp := s.cp.set e.cell (Bitset.NONE 16), hs := hs }

/-- The loop over the neighbours, src/strategy/solver.rs lines 437-449. -/
def Solver.removeFromNeighbors (s : Solver) (mask : DigitSet) (findNaked : Bool) (cells : List (Fin 81)) :
    Res (Solver × Bool) :=
  tryEach (fun s cell =>
    if Bitset.overlaps mask s.cp[cell] then s.removeImpossibilities cell mask findNaked else .ok (s, true)) true cells s

/-- `insert_entries_singly`, src/strategy/solver.rs lines 409-457. -/
def Solver.insertSingly (findNaked : Bool) : Nat → Solver → Res (Solver × Bool)
  | 0, _ => .timeout
  | fuel + 1, s =>
    match s.deduced[s.cpNext]? with
    | none => .ok (s, true)
    | some e => do
      let s ← s.advance
      if Bitset.isEmpty s.cp[e.cell] then Solver.insertSingly findNaked fuel s
      else if Bitset.isEmpty (Bitset.inter s.cp[e.cell] e.digitSet) then .ok (s, false)
      else do
        let s ← s.insertCandidateCpZs e
        let (s, ok) ← s.removeFromNeighbors e.digitSet findNaked (Pos.neighbors e.cell)
        if !ok then .ok (s, false)
        else if s.deduced.length < s.cpNext then .panic
        else if s.deduced.length - s.cpNext > 4 then .ok (s, true)
        else Solver.insertSingly findNaked fuel s

/-- `_batch_insert_entries`, src/strategy/solver.rs lines 480-512. -/
def Solver.batchInsert : Nat → Solver → Res (Solver × Bool)
  | 0, _ => .timeout
  | fuel + 1, s =>
    match s.deduced[s.cpNext]? with
    | none => .ok (s, true)
    | some e => do
      let s ← s.advance
      if Bitset.isEmpty s.cp[e.cell] then Solver.batchInsert fuel s
      else if Bitset.overlaps s.hs[e.row] e.digitSet
          || Bitset.overlaps s.hs[e.col] e.digitSet
          || Bitset.overlaps s.hs[e.block] e.digitSet then .ok (s, false)
      else do
        let s ← s.insertCandidateCpZs e
        Solver.batchInsert fuel s

/-- The digits entered in the houses of a cell, src/strategy/solver.rs lines 522-524 and 562-564. -/
def Solver.housesMask (s : Solver) (cell : Fin 81) : DigitSet :=
  Bitset.union (Bitset.union s.hs[Pos.rowHouse (Pos.cellRow cell)] s.hs[Pos.colHouse (Pos.cellCol cell)])
    s.hs[Pos.blockHouse (Pos.cellBlock cell)]

/-- `_batch_remove_conflicts`, src/strategy/solver.rs lines 514-537. -/
def Solver.batchRemove (s : Solver) (findNaked : Bool) : Res (Solver × Bool) :=
  tryEach (fun s cell =>
    if Bitset.isEmpty s.cp[cell] then .ok (s, true)
    else s.removeImpossibilities cell (s.housesMask cell) findNaked) true (List.finRange 81) s

/-- `batch_insert_entries`, src/strategy/solver.rs lines 473-476. -/
def Solver.batch (fuel : Nat) (findNaked : Bool) (s : Solver) : Res (Solver × Bool) :=
  andThen (Solver.batchInsert fuel s) (fun s => s.batchRemove findNaked)

/-- The loop of `insert_entries`, src/strategy/solver.rs lines 396-402. -/
def Solver.insertLoop (fuel0 : Nat) (findNaked : Bool) : Nat → Solver → Res (Solver × Bool)
  | 0, _ => .timeout
  | fuel + 1, s =>
    if s.deduced.length < s.cpNext then .panic
    else
      let n := s.deduced.length - s.cpNext
      if n = 0 then .ok (s, true)
      else if n ≤ 4 then andThen (Solver.insertSingly findNaked fuel0 s) (Solver.insertLoop fuel0 findNaked fuel)
      else andThen (Solver.batch fuel0 findNaked s) (Solver.insertLoop fuel0 findNaked fuel)

/-- `insert_entries`, src/strategy/solver.rs lines 386-403. -/
def Solver.insertEntries (fuel : Nat) (findNaked newEliminations : Bool) (s : Solver) : Res (Solver × Bool) := do
  Res.assert (decide (s.cpNext = s.hsNext))
  if newEliminations then
    andThen (Solver.batch fuel findNaked s) (Solver.insertLoop fuel findNaked fuel)
  else Solver.insertLoop fuel findNaked fuel s

/-- `_update_cell_poss_house_solved`, src/strategy/solver.rs lines 295-327.  (Eliminated entries are not added in the
loop, so the slice is taken from the list as it is at the start.) -/
def Solver.update (fuel : Nat) (findNaked early : Bool) (s : Solver) : Res (Solver × Bool) :=
  let newEliminations := decide (s.cpElim > s.eliminated.length)
  if s.eliminated.length < s.cpElim then .panic
  else
    andThen (tryEach (fun s e => s.removeImpossibilities e.cell e.digitSet findNaked) early
        (s.eliminated.drop s.cpElim) s)
      (fun s => Solver.insertEntries fuel findNaked newEliminations
        { s with cpElim := s.eliminated.length % 65536 })

/-- `house_poss_positions[house][digit].remove(pos.as_set())`. -/
def removePos (hp : Vector (Vector PosSet 9) 27) (h : Fin 27) (d : Digit) (pos : Fin 9) : Vector (Vector PosSet 9) 27 :=
  hp.set h (hp[h].set d (Bitset.without hp[h][d] (Bitset.asSet 16 pos.val)))

/-- Remove a cell as a place for a digit in its three houses: src/strategy/solver.rs lines 343-345, 355-360 and
372-374. -/
def removeCellDigit (hp : Vector (Vector PosSet 9) 27) (cell : Fin 81) (d : Digit) : Vector (Vector PosSet 9) 27 :=
  let hp := removePos hp (Pos.rowHouse (Pos.cellRow cell)) d (Pos.rowPos cell)
  let hp := removePos hp (Pos.colHouse (Pos.cellCol cell)) d (Pos.colPos cell)
  removePos hp (Pos.blockHouse (Pos.cellBlock cell)) d (Pos.blockPos cell)

/-- `house_poss_positions[house][digit] = Set::NONE`. -/
def clearPos (hp : Vector (Vector PosSet 9) 27) (h : Fin 27) (d : Digit) : Vector (Vector PosSet 9) 27 :=
  hp.set h (hp[h].set d (Bitset.NONE 16))

/-- The body of the loop over the new entries, src/strategy/solver.rs lines 350-380. -/
def enterPos (hp : Vector (Vector PosSet 9) 27) (e : Candidate) : Vector (Vector PosSet 9) 27 :=
  let hp := (Pos.neighbors e.cell).foldl (fun hp cell => removeCellDigit hp cell e.digit) hp
  let hp := (List.finRange 9).foldl (fun hp d => removeCellDigit hp e.cell d) hp
  let hp := clearPos hp e.row e.digit
  let hp := clearPos hp e.col e.digit
  clearPos hp e.block e.digit

/-- `update_house_poss_positions`, src/strategy/solver.rs lines 329-383. -/
def Solver.updateHousePoss (s : Solver) : Res Solver :=
  if s.eliminated.length < s.hpElim then .panic
  else
    let hp := (s.eliminated.drop s.hpElim).foldl (fun hp e => removeCellDigit hp e.cell e.digit) s.hp
    if s.deduced.length < s.hpNext then .panic
    else
      let hp := (s.deduced.drop s.hpNext).foldl enterPos hp
      .ok { s with hp := hp, hpElim := s.eliminated.length % 65536, hpNext := s.deduced.length % 65536 }

/-- `enter_conflicts`, src/strategy/solver.rs lines 632-651. -/
def Solver.enterConflicts (s : Solver) (conflicts : List Candidate) (deduction : Nat × Nat → RangeDeduction) :
    Solver × Bool :=
  let before := s.eliminated.length
  let eliminated := s.eliminated ++ conflicts
  if eliminated.length > before then
    ({ s with eliminated := eliminated, deductions := s.deductions ++ [deduction (before, eliminated.length)] }, true)
  else ({ s with eliminated := eliminated }, false)

/-! ## Singles -/

/-- `naked_singles::find_naked_singles`, src/strategy/strategies/naked_singles.rs lines 3-21, with the closure of
`StrategySolver::find_naked_singles`, src/strategy/solver.rs lines 666-675. -/
def nakedSinglesLoop (cp : Vector DigitSet 81) (stop : Bool) : List (Fin 81) → Solver → Res (Solver × Bool)
  | [], s => .ok (s, true)
  | cell :: cells, s => do
    match ← Bitset.uniqueItem 9 cp[cell] with
    | .ok (some digit) =>
      let e : Candidate := ⟨cell, digit⟩
      let (s, ok) ← Solver.pushNewCandidate { s with deduced := s.deduced ++ [e] } e (.nakedSingles e)
      if !ok then .ok (s, false) else if stop then .ok (s, true) else nakedSinglesLoop cp stop cells s
    | _ => nakedSinglesLoop cp stop cells s

/-- `find_naked_singles`, src/strategy/solver.rs lines 657-680. -/
def Solver.findNakedSingles (fuel : Nat) (stop : Bool) (s : Solver) : Res (Solver × Bool) :=
  andThen (Solver.update fuel false true s) fun s =>
    andThen (nakedSinglesLoop s.cp stop (List.finRange 81) s) (Solver.update fuel false true)

/-- `find_unique`, src/strategy/strategies/locked_candidates.rs lines 84-94, and the same loop in
src/strategy/strategies/hidden_singles.rs lines 16-24: `(unsolved, multiple_unsolved)`. -/
def scanDigits (l : List DigitSet) : DigitSet × DigitSet :=
  l.foldl (fun acc p => (Bitset.union acc.1 p, Bitset.union acc.2 (Bitset.inter acc.1 p)))
    (Bitset.NONE 16, Bitset.NONE 16)

/-- The loop over the cells of a house with hidden singles, src/strategy/strategies/hidden_singles.rs lines 34-54, with
the closure of src/strategy/solver.rs lines 697-700.  `none`: an error; `some true`: `return Ok(())`;
`some false`: go on with the next house. -/
def hiddenSinglesCells (cp : Vector DigitSet 81) (stop : Bool) (house : Fin 27) :
    List (Fin 81) → DigitSet → Solver → Res (Solver × Option Bool)
  | [], _, s => .ok (s, some false)
  | cell :: cells, singles, s => do
    match ← Bitset.uniqueItem 9 (Bitset.inter cp[cell] singles) with
    | .error () => hiddenSinglesCells cp stop house cells singles s
    | .ok none => .ok (s, none)
    | .ok (some digit) =>
      let e : Candidate := ⟨cell, digit⟩
      let (s, ok) ← s.pushNewCandidate e (.hiddenSingles e (Pos.categorize house))
      if !ok then .ok (s, none)
      else
        let singles := Bitset.without singles (Bitset.asSet 16 digit.val)
        if stop then .ok (s, some true)
        else if Bitset.isEmpty singles then .ok (s, some false)
        else hiddenSinglesCells cp stop house cells singles s

/-- The loop over the houses, src/strategy/strategies/hidden_singles.rs lines 10-56. -/
def hiddenSinglesLoop (cp : Vector DigitSet 81) (hs : Vector DigitSet 27) (stop : Bool) :
    List (Fin 27) → Solver → Res (Solver × Bool)
  | [], s => .ok (s, true)
  | house :: houses, s => do
    let s := { s with lastHouse := if s.lastHouse < 27 then s.lastHouse + 1 else 0 }
    let cells ← Bitset.items 81 (Pos.houseCells house)
    let (unsolved, multiple) := scanDigits (cells.map (fun c => cp[c]))
    if Bitset.union unsolved hs[house] ≠ Bitset.ALL 16 9 then .ok (s, false)
    else
      let singles := Bitset.without unsolved multiple
      if Bitset.isEmpty singles then hiddenSinglesLoop cp hs stop houses s
      else do
        match ← hiddenSinglesCells cp stop house cells singles s with
        | (s, none) => .ok (s, false)
        | (s, some true) => .ok (s, true)
        | (s, some false) => hiddenSinglesLoop cp hs stop houses s

/-- `find_hidden_singles`, src/strategy/solver.rs lines 682-706. -/
def Solver.findHiddenSingles (fuel : Nat) (stop : Bool) (s : Solver) : Res (Solver × Bool) :=
  andThen (Solver.update fuel false true s) fun s =>
    andThen (hiddenSinglesLoop s.cp s.hs stop
        (((List.finRange 27 ++ List.finRange 27).drop s.lastHouse).take 27) s)
      (Solver.update fuel false true)

/-! ## Locked candidates -/

/-- The candidates for `digits` in a cell: `(cell_poss_digits[cell] & digits).into_iter().map(..)`. -/
def cellConflicts (cp : Vector DigitSet 81) (digits : DigitSet) (cell : Fin 81) : Res (List Candidate) := do
  let l ← Bitset.items 9 (Bitset.inter cp[cell] digits)
  .ok (l.map (fun d => ⟨cell, d⟩))

/-- `flat_map` over a list. -/
def flatMapM {α β : Type} (f : α → Res (List β)) (l : List α) : Res (List β) := do
  .ok (← l.mapM f).flatten

/-- The closure of `find_locked_candidates`, src/strategy/solver.rs lines 719-737. -/
def onLocked (cp : Vector DigitSet 81) (s : Solver) (miniline : Fin 54) (digit : Digit) (neighbors : Nat × Nat)
    (isPointing : Bool) : Res (Solver × Bool) := do
  let n1 ← Bitset.toFin 54 neighbors.1
  let n2 ← Bitset.toFin 54 neighbors.2
  let cells ← flatMapM (fun n => Bitset.items 81 (Pos.miniLineCells n)) [n1, n2]
  let conflicts ← flatMapM (cellConflicts cp (Bitset.asSet 16 digit.val)) cells
  .ok (s.enterConflicts conflicts (fun rg => .lockedCandidates digit miniline isPointing rg))

/-- The possible digits of a miniline, src/strategy/strategies/locked_candidates.rs lines 22-26. -/
def minilineDigits (cp : Vector DigitSet 81) (m : Fin 54) : Res DigitSet := do
  let cells ← Bitset.items 81 (Pos.miniLineCells m)
  .ok (cells.foldl (fun acc c => Bitset.union acc cp[c]) (Bitset.NONE 16))

/-- `unsolved.without(multiple_unsolved)` of `find_unique` for three minilines,
src/strategy/strategies/locked_candidates.rs lines 33-45. -/
def uniqueOf (poss : Vector DigitSet 9) (i j k : Fin 9) : DigitSet :=
  let r := scanDigits [poss[i], poss[j], poss[k]]
  Bitset.without r.1 r.2

/-- The body of the loop over the minilines of a chute, src/strategy/strategies/locked_candidates.rs lines 48-76;
the Boolean says whether the search stops. -/
def lockedMiniline (cp : Vector DigitSet 81) (stop : Bool) (poss : Vector DigitSet 9) (chute : Fin 6) (s : Solver)
    (i : Fin 9) : Res (Solver × Bool) := do
  let miniline : Fin 54 := ⟨chute.val * 9 + i.val, by omega⟩
  let chuteLine := i.val / 3
  let chuteField := i.val % 3
  let lineUnique := uniqueOf poss ⟨chuteLine * 3, by omega⟩ ⟨chuteLine * 3 + 1, by omega⟩ ⟨chuteLine * 3 + 2, by omega⟩
  let blockUnique := uniqueOf poss ⟨chuteField, by omega⟩ ⟨3 + chuteField, by omega⟩ ⟨6 + chuteField, by omega⟩
  let lineUniques := Bitset.inter poss[i] lineUnique
  let blockUniques := Bitset.inter poss[i] blockUnique
  match Pos.minilineNeighbors miniline with
  | none => .panic
  | some (lineNeighbors, fieldNeighbors) =>
    forUntil (fun s (x : DigitSet × (Nat × Nat) × Bool) => do
        let digits ← Bitset.items 9 x.1
        forUntil (fun s digit => do
          let (s, found) ← onLocked cp s miniline digit x.2.1 x.2.2
          .ok (s, stop && found)) digits s)
      ([(lineUniques, fieldNeighbors, false), (blockUniques, lineNeighbors, true)].filter
        (fun x => !Bitset.isEmpty x.1)) s

/-- The loop over the chutes, src/strategy/strategies/locked_candidates.rs lines 16-78. -/
def lockedChute (cp : Vector DigitSet 81) (stop : Bool) (s : Solver) (chute : Fin 6) : Res (Solver × Bool) := do
  let l ← (Pos.minilines chute).mapM (minilineDigits cp)
  if h : l.length = 9 then
    let poss : Vector DigitSet 9 := ⟨l.toArray, by simpa using h⟩
    forUntil (lockedMiniline cp stop poss chute) (List.finRange 9) s
  else .panic

/-- `find_locked_candidates`, src/strategy/solver.rs lines 710-739. -/
def Solver.findLockedCandidates (fuel : Nat) (stop : Bool) (s : Solver) : Res (Solver × Bool) :=
  andThen (Solver.update fuel false true s) fun s => do
    let (s, _) ← forUntil (lockedChute s.cp stop) (List.finRange 6) s
    .ok (s, true)

/-! ## Searches through combinations

`walk_combinations` in `naked_subsets.rs` and `hidden_subsets.rs`, `basic_fish_walk_combinations`, `find_base` and
`find_cover` share one form: a function first looks at the accumulated combination (`visit`: `some b` is `return b`),
then goes through the remaining elements; `step` extends the combination by an element (`none` is `continue`), the
function is called for the extended combination and the elements after that one, and `true` is passed on. -/

/-- The `while let Some(x) = iter.next()` loop. -/
def walkLoop {α A : Type} (visit : A → Solver → Res (Solver × Option Bool)) (step : A → α → Res (Option A)) :
    List α → A → Solver → Res (Solver × Bool)
  | [], _, s => .ok (s, false)
  | x :: xs, a, s => do
    match ← step a x with
    | none => walkLoop visit step xs a s
    | some a' => do
      let (s, found) ← (do
        match ← visit a' s with
        | (s, some b) => .ok (s, b)
        | (s, none) => walkLoop visit step xs a' s)
      if found then .ok (s, true) else walkLoop visit step xs a s

/-- The whole function. -/
def walk {α A : Type} (visit : A → Solver → Res (Solver × Option Bool)) (step : A → α → Res (Option A))
    (xs : List α) (a : A) (s : Solver) : Res (Solver × Bool) := do
  match ← visit a s with
  | (s, some b) => .ok (s, b)
  | (s, none) => walkLoop visit step xs a s

/-! ## Subsets -/

/-- The closure of `find_naked_subsets`, src/strategy/solver.rs lines 757-774. -/
def onNakedSubset (cp : Vector DigitSet 81) (house : Fin 27) (s : Solver) (positions : PosSet) (digits : DigitSet) :
    Res (Solver × Bool) := do
  let others ← Bitset.items 9 (Bitset.compl 9 positions)
  let conflicts ← flatMapM (fun pos => cellConflicts cp digits (Pos.houseCellAt house pos)) others
  .ok (s.enterConflicts conflicts (fun rg => .subsets house positions digits rg))

/-- Lines 20-32 of `walk_combinations`, src/strategy/strategies/naked_subsets.rs; the combination is
`(position_set, total_poss_digs)`. -/
def nakedVisit (cp : Vector DigitSet 81) (size : UInt8) (stop : Bool) (house : Fin 27) (a : PosSet × DigitSet)
    (s : Solver) : Res (Solver × Option Bool) :=
  if Bitset.len a.1 > size then .ok (s, some false)
  else if Bitset.len a.1 = size ∧ Bitset.len a.2 = Bitset.len a.1 then do
    let (s, found) ← onNakedSubset cp house s a.1 a.2
    if found && stop then .ok (s, some true) else .ok (s, none)
  else .ok (s, none)

/-- Lines 36-43 of `walk_combinations`, src/strategy/strategies/naked_subsets.rs. -/
def nakedStep (cp : Vector DigitSet 81) (house : Fin 27) (a : PosSet × DigitSet) (pos : Fin 9) :
    Res (Option (PosSet × DigitSet)) :=
  let poss := cp[Pos.houseCellAt house pos]
  if Bitset.isEmpty poss then .ok none
  else .ok (some (Bitset.union a.1 (Bitset.asSet 16 pos.val), Bitset.union a.2 poss))

/-- `find_naked_subsets`, src/strategy/strategies/naked_subsets.rs lines 3-83, called in src/strategy/solver.rs
lines 741-776. -/
def Solver.findNakedSubsets (fuel : Nat) (size : UInt8) (stop : Bool) (s : Solver) : Res (Solver × Bool) :=
  andThen (Solver.update fuel false true s) fun s => do
    let cp := s.cp
    let hs := s.hs
    let (s, _) ← forUntil (fun s house =>
      if Bitset.isFull 9 hs[house] then .ok (s, false)
      else do
        let positions ← Bitset.items 9 (Bitset.ALL 16 9)
        walk (nakedVisit cp size stop house) (nakedStep cp house) positions (Bitset.NONE 16, Bitset.NONE 16) s)
      (List.finRange 27) s
    .ok (s, true)

/-- The closure of `find_hidden_subsets`, src/strategy/solver.rs lines 795-814. -/
def onHiddenSubset (poss : Vector PosSet 9) (house : Fin 27) (s : Solver) (digits : DigitSet) (positions : PosSet) :
    Res (Solver × Bool) := do
  let others ← Bitset.items 9 (Bitset.compl 9 digits)
  let conflicts ← flatMapM (fun d : Digit => do
    let l ← Bitset.items 9 (Bitset.inter poss[d] positions)
    .ok (l.map (fun pos => (⟨Pos.houseCellAt house pos, d⟩ : Candidate)))) others
  .ok (s.enterConflicts conflicts (fun rg => .subsets house positions digits rg))

/-- Lines 20-31 of `walk_combinations`, src/strategy/strategies/hidden_subsets.rs; the combination is
`(digit_set, total_poss_pos)`. -/
def hiddenVisit (poss : Vector PosSet 9) (size : UInt8) (stop : Bool) (house : Fin 27) (a : DigitSet × PosSet)
    (s : Solver) : Res (Solver × Option Bool) :=
  if Bitset.len a.1 > size then .ok (s, some false)
  else if Bitset.len a.1 = size ∧ Bitset.len a.2 = size then do
    let (s, found) ← onHiddenSubset poss house s a.1 a.2
    if found && stop then .ok (s, some true) else .ok (s, none)
  else .ok (s, none)

/-- Lines 35-41 of `walk_combinations`, src/strategy/strategies/hidden_subsets.rs. -/
def hiddenStep (poss : Vector PosSet 9) (a : DigitSet × PosSet) (digit : Digit) : Res (Option (DigitSet × PosSet)) :=
  if Bitset.isEmpty poss[digit] then .ok none
  else .ok (some (Bitset.union a.1 (Bitset.asSet 16 digit.val), Bitset.union a.2 poss[digit]))

/-- `find_hidden_subsets`, src/strategy/strategies/hidden_subsets.rs lines 3-76, called in src/strategy/solver.rs
lines 778-816. -/
def Solver.findHiddenSubsets (fuel : Nat) (size : UInt8) (stop : Bool) (s : Solver) : Res (Solver × Bool) :=
  andThen (Solver.update fuel false true s) fun s => do
    let s ← s.updateHousePoss
    let hp := s.hp
    let hs := s.hs
    let (s, _) ← forUntil (fun s house =>
      if Bitset.isFull 9 hs[house] then .ok (s, false)
      else do
        let digits ← Bitset.items 9 (Bitset.ALL 16 9)
        walk (hiddenVisit hp[house] size stop house) (hiddenStep hp[house]) digits (Bitset.NONE 16, Bitset.NONE 16) s)
      (List.finRange 27) s
    .ok (s, true)

/-! ## Fish -/

/-- `as_line_set`, src/board/positions.rs lines 729-732. -/
def asLineSet (p : PosSet) : Res PosSet := do
  Res.assert (decide (p ≤ Bitset.ALL 16 9))
  Bitset.fromBits 9 p

/-- The closure of `find_fish`, src/strategy/solver.rs lines 843-859. -/
def onFish (cp : Vector DigitSet 81) (allLines : LineSet) (digit : Digit) (s : Solver) (lines : LineSet)
    (positions : PosSet) : Res (Solver × Bool) := do
  let others ← Bitset.items 18 (Bitset.without allLines lines)
  let cells ← flatMapM (fun line => do
    let l ← Bitset.items 9 positions
    .ok (l.map (fun pos => Pos.lineCellAt line pos))) others
  let conflicts := (cells.filter (fun c => Bitset.contains cp[c] (Bitset.asSet 16 digit.val))).map
    (fun c => (⟨c, digit⟩ : Candidate))
  .ok (s.enterConflicts conflicts (fun rg => .basicFish digit lines positions rg))

/-- Lines 51-61 of `basic_fish_walk_combinations`, src/strategy/strategies/basic_fish.rs; the combination is
`(line_set, union_poss_pos)`. -/
def fishVisit (cp : Vector DigitSet 81) (allLines : LineSet) (digit : Digit) (goal : UInt8) (stop : Bool)
    (a : LineSet × PosSet) (s : Solver) : Res (Solver × Option Bool) :=
  if Bitset.len a.1 = goal then
    if Bitset.len a.2 ≠ goal then .ok (s, some false)
    else do
      let (s, found) ← onFish cp allLines digit s a.1 a.2
      if found then .ok (s, some stop) else .ok (s, none)
  else .ok (s, none)

/-- Lines 64-74 of `basic_fish_walk_combinations`, src/strategy/strategies/basic_fish.rs. -/
def fishStep (hp : Vector (Vector PosSet 9) 27) (digit : Digit) (goal : UInt8) (a : LineSet × PosSet) (line : Fin 18) :
    Res (Option (LineSet × PosSet)) := do
  let poss := hp[Pos.lineHouse line][digit]
  let n := Bitset.len poss
  let union := Bitset.union a.2 (← asLineSet poss)
  if n < 2 ∨ Bitset.len union > goal then .ok none
  else .ok (some (Bitset.union a.1 (Bitset.asSet 32 line.val), union))

/-- `Line::ALL_ROWS` and `Line::ALL_COLS`, src/board/positions.rs lines 565-566. -/
def allRows : LineSet := 0o000777#32
def allCols : LineSet := 0o777000#32

/-- `basic_fish::find_fish`, src/strategy/strategies/basic_fish.rs lines 3-32, called in src/strategy/solver.rs
lines 830-861. -/
def Solver.findFish (fuel : Nat) (size : UInt8) (stop : Bool) (s : Solver) : Res (Solver × Bool) := do
  let s ← s.updateHousePoss
  andThen (Solver.update fuel false true s) fun s => do
    let cp := s.cp
    let hp := s.hp
    let (s, _) ← forUntil (fun s (digit : Digit) =>
      forUntil (fun s (lines : LineSet) => do
        let l ← Bitset.items 18 lines
        walk (fishVisit cp lines digit size stop) (fishStep hp digit size) l (Bitset.NONE 32, Bitset.NONE 16) s)
      [allRows, allCols] s) (List.finRange 9) s
    .ok (s, true)

/-- `House::ALL_ROWS`, `ALL_COLS`, `ALL_BLOCKS`, src/board/positions.rs lines 310-312, and `is_mutant`,
src/strategy/strategies/mutant_fish.rs lines 159-163. -/
def isMutant (houses : HouseSet) : Bool :=
  Bitset.contains 0o000000777#32 houses || Bitset.contains 0o000777000#32 houses
    || Bitset.contains 0o777000000#32 houses

/-- The closure of `find_mutant_fish`, src/strategy/solver.rs lines 880-901. -/
def onMutantFish (cp : Vector DigitSet 81) (digit : Digit) (candidates : Pos.Cells) (base : HouseSet) (s : Solver)
    (cover : HouseSet) : Res (Solver × Bool) := do
  let houses ← Bitset.items 27 cover
  let coverCells := houses.foldl (fun acc h => Bitset.union acc (Pos.houseCells h)) (Bitset.NONE 128)
  let cells ← Bitset.items 81 (Bitset.symmDiff coverCells candidates)
  let conflicts := (cells.filter (fun c => Bitset.contains cp[c] (Bitset.asSet 16 digit.val))).map
    (fun c => (⟨c, digit⟩ : Candidate))
  .ok (s.enterConflicts conflicts (fun rg => .fish digit base cover rg))

/-- Lines 122-129 of `find_cover`, src/strategy/strategies/mutant_fish.rs; the combination is
`(chosen_houses, covered_candidate_cells)`. -/
def coverVisit (cp : Vector DigitSet 81) (digit : Digit) (stop : Bool) (candidates : Pos.Cells) (base : HouseSet)
    (a : HouseSet × Pos.Cells) (s : Solver) : Res (Solver × Option Bool) :=
  if Bitset.len a.1 = Bitset.len base ∧ candidates = a.2 ∧ (isMutant base || isMutant a.1) then do
    let (s, found) ← onMutantFish cp digit candidates base s a.1
    .ok (s, some (found && stop))
  else .ok (s, none)

/-- Lines 133-139 of `find_cover`, src/strategy/strategies/mutant_fish.rs. -/
def coverStep (candidates : Pos.Cells) (a : HouseSet × Pos.Cells) (house : Fin 27) :
    Res (Option (HouseSet × Pos.Cells)) :=
  let covered := Bitset.inter candidates (Pos.houseCells house)
  if Bitset.overlaps covered a.2 then .ok none
  else .ok (some (Bitset.union a.1 (Bitset.asSet 32 house.val), Bitset.union a.2 covered))

/-- Lines 48-68 of `find_base`, src/strategy/strategies/mutant_fish.rs; the combination is
`(base_houses, candidate_cells)`. -/
def baseVisit (cp : Vector DigitSet 81) (digit : Digit) (size : UInt8) (stop : Bool) (a : HouseSet × Pos.Cells)
    (s : Solver) : Res (Solver × Option Bool) :=
  if Bitset.len a.1 = size then
    if Bitset.len a.2 ≠ size then .ok (s, some false)
    else do
      let houses ← Bitset.items 27 (Bitset.symmDiff (Bitset.ALL 32 27) a.1)
      let (s, found) ← walk (coverVisit cp digit stop a.2 a.1) (coverStep a.2) houses (Bitset.NONE 32, Bitset.NONE 128) s
      if found then .ok (s, some true) else .ok (s, none)
  else .ok (s, none)

/-- Lines 72-89 of `find_base`, src/strategy/strategies/mutant_fish.rs. -/
def baseStep (hp : Vector (Vector PosSet 9) 27) (digit : Digit) (size : UInt8) (a : HouseSet × Pos.Cells)
    (house : Fin 27) : Res (Option (HouseSet × Pos.Cells)) := do
  let poss := hp[house][digit]
  let n := Bitset.len poss
  let cells ← Pos.houseCellsAt house poss
  if Bitset.len cells > size ∨ Bitset.overlaps cells a.2 then .ok none
  else
    let union := Bitset.union a.2 cells
    if n < 2 ∨ Bitset.len union > size then .ok none
    else .ok (some (Bitset.union a.1 (Bitset.asSet 32 house.val), union))

/-- `find_mutant_fish`, src/strategy/strategies/mutant_fish.rs lines 5-31, called in src/strategy/solver.rs
lines 863-903. -/
def Solver.findMutantFish (fuel : Nat) (size : UInt8) (stop : Bool) (s : Solver) : Res (Solver × Bool) := do
  let s ← s.updateHousePoss
  andThen (Solver.update fuel false true s) fun s => do
    let cp := s.cp
    let hp := s.hp
    let (s, _) ← forUntil (fun s (digit : Digit) => do
      let houses ← Bitset.items 27 (Bitset.ALL 32 27)
      walk (baseVisit cp digit size stop) (baseStep hp digit size) houses (Bitset.NONE 32, Bitset.NONE 128) s)
      (List.finRange 9) s
    .ok (s, true)

/-! ## Wings -/

/-- `.unique().unwrap().unwrap()`. -/
def uniqueUnwrap (a : DigitSet) : Res Digit := do
  match ← Bitset.uniqueItem 9 a with
  | .ok (some d) => .ok d
  | _ => .panic

/-- The closure of `find_xy_wing`, src/strategy/solver.rs lines 914-935. -/
def onXyWing (cp : Vector DigitSet 81) (hinge : Fin 81) (s : Solver) (cell1 cell2 : Fin 81) : Res (Solver × Bool) := do
  let digit ← uniqueUnwrap (Bitset.inter cp[cell1] cp[cell2])
  let cells ← Bitset.items 81 (Bitset.inter (Pos.neighborsSet cell1) (Pos.neighborsSet cell2))
  let conflicts := (cells.filter (fun c => Bitset.contains cp[c] (Bitset.asSet 16 digit.val))).map
    (fun c => (⟨c, digit⟩ : Candidate))
  .ok (s.enterConflicts conflicts (fun rg =>
    .wing hinge cp[hinge] (Bitset.union (Pos.cellCells cell1) (Pos.cellCells cell2)) rg))

/-- The closure of `find_xyz_wing`, src/strategy/solver.rs lines 948-972. -/
def onXyzWing (cp : Vector DigitSet 81) (hinge : Fin 81) (s : Solver) (cell1 cell2 : Fin 81) : Res (Solver × Bool) := do
  let digit ← uniqueUnwrap (Bitset.inter cp[cell1] cp[cell2])
  let common := Bitset.inter (Bitset.inter (Pos.neighborsSet hinge) (Pos.neighborsSet cell1)) (Pos.neighborsSet cell2)
  Res.assert (Bitset.len common == 2)
  let cells ← Bitset.items 81 common
  let conflicts := (cells.filter (fun c => Bitset.contains cp[c] (Bitset.asSet 16 digit.val))).map
    (fun c => (⟨c, digit⟩ : Candidate))
  .ok (s.enterConflicts conflicts (fun rg =>
    .wing hinge cp[hinge] (Bitset.union (Pos.cellCells cell1) (Pos.cellCells cell2)) rg))

/-- `overlapping_bivalue_cells`, src/strategy/strategies/xy_wing.rs lines 28-35 (`common` = 1) and
src/strategy/strategies/xyz_wing.rs lines 30-37 (`common` = 2). -/
def bivalueCells (cp : Vector DigitSet 81) (digits : DigitSet) (common : UInt8) (cells : Pos.Cells) :
    Res (List (Fin 81)) := do
  let l ← Bitset.items 81 cells
  .ok (l.filter (fun c => Bitset.len cp[c] == 2 && Bitset.len (Bitset.inter digits cp[c]) == common))

/-- The two inner loops, src/strategy/strategies/xy_wing.rs lines 36-50 and src/strategy/strategies/xyz_wing.rs
lines 38-52. -/
def wingPairs (cp : Vector DigitSet 81) (stop : Bool) (common : UInt8)
    (onWing : Solver → Fin 81 → Fin 81 → Res (Solver × Bool)) (hinge : Fin 81) (s : Solver)
    (cells : Pos.Cells × Pos.Cells) : Res (Solver × Bool) := do
  let l1 ← bivalueCells cp cp[hinge] common cells.1
  forUntil (fun s cell1 => do
    let l2 ← bivalueCells cp cp[hinge] common cells.2
    forUntil (fun s cell2 =>
      if Bitset.len (Bitset.inter cp[cell1] cp[cell2]) ≠ 1
          ∨ Bitset.len (Bitset.union (Bitset.union cp[cell1] cp[cell2]) cp[hinge]) ≠ 3 then .ok (s, false)
      else do
        let (s, found) ← onWing s cell1 cell2
        .ok (s, found && stop)) l2 s) l1 s

/-- The disjoint cell sets of lines 17-25 of xy_wing.rs and 19-27 of xyz_wing.rs, and the pairs of line 27 and 29. -/
def wingAreas (c : Fin 81) : (Pos.Cells × Pos.Cells) × (Pos.Cells × Pos.Cells) × (Pos.Cells × Pos.Cells) :=
  let row := Pos.rowCells (Pos.cellRow c)
  let col := Pos.colCells (Pos.cellCol c)
  let block := Pos.blockCells (Pos.cellBlock c)
  let rowDj := Bitset.without row block
  let colDj := Bitset.without col block
  ((Bitset.without block row, rowDj), (Bitset.without block col, colDj), (rowDj, colDj))

/-- `find_xy_wing`, src/strategy/strategies/xy_wing.rs lines 3-54, called in src/strategy/solver.rs lines 905-937. -/
def Solver.findXyWing (fuel : Nat) (stop : Bool) (s : Solver) : Res (Solver × Bool) :=
  andThen (Solver.update fuel false true s) fun s => do
    let cp := s.cp
    let (s, _) ← forUntil (fun s hinge =>
      if Bitset.len cp[hinge] ≠ 2 then .ok (s, false)
      else
        let areas := wingAreas hinge
        forUntil (wingPairs cp stop 1 (onXyWing cp hinge) hinge) [areas.1, areas.2.1, areas.2.2] s)
      (List.finRange 81) s
    .ok (s, true)

/-- `find_xyz_wing`, src/strategy/strategies/xyz_wing.rs lines 5-56, called in src/strategy/solver.rs lines 939-974. -/
def Solver.findXyzWing (fuel : Nat) (stop : Bool) (s : Solver) : Res (Solver × Bool) :=
  andThen (Solver.update fuel false true s) fun s => do
    let cp := s.cp
    let (s, _) ← forUntil (fun s hinge =>
      if Bitset.len cp[hinge] ≠ 3 then .ok (s, false)
      else
        let areas := wingAreas hinge
        forUntil (wingPairs cp stop 2 (onXyzWing cp hinge) hinge) [areas.1, areas.2.1] s)
      (List.finRange 81) s
    .ok (s, true)

/-! ## The solver -/

/-- `Strategy::deduce`, src/strategy/strategies.rs lines 72-102. -/
def Strategy.deduce (fuel : Nat) (st : Strategy) (stop isFirst : Bool) (s : Solver) : Res (Solver × Bool) :=
  match st with
  | .nakedSingles => if !stop && isFirst then s.update fuel true true else s.findNakedSingles fuel stop
  | .hiddenSingles => s.findHiddenSingles fuel stop
  | .lockedCandidates => s.findLockedCandidates fuel stop
  | .nakedPairs => s.findNakedSubsets fuel 2 stop
  | .nakedTriples => s.findNakedSubsets fuel 3 stop
  | .nakedQuads => s.findNakedSubsets fuel 4 stop
  | .hiddenPairs => s.findHiddenSubsets fuel 2 stop
  | .hiddenTriples => s.findHiddenSubsets fuel 3 stop
  | .hiddenQuads => s.findHiddenSubsets fuel 4 stop
  | .xWing => s.findFish fuel 2 stop
  | .swordfish => s.findFish fuel 3 stop
  | .jellyfish => s.findFish fuel 4 stop
  | .xyWing => s.findXyWing fuel stop
  | .xyzWing => s.findXyzWing fuel stop
  | .mutantSwordfish => s.findMutantFish fuel 3 stop
  | .mutantJellyfish => s.findMutantFish fuel 4 stop
  | .avoidableRectangles => .panic

/-- The `for strategy in rest` loop of `try_solve`, src/strategy/solver.rs lines 273-280, with
`deduce_one` (src/strategy/strategies.rs lines 104-106); `true` is `continue 'outer`. -/
def restLoop (fuel nDeduced nEliminated : Nat) : List Strategy → Solver → Res (Solver × Bool)
  | [], s => .ok (s, false)
  | st :: rest, s => do
    let (s, ok) ← st.deduce fuel true false s
    if !ok then .ok (s, false)
    else if s.deduced.length > nDeduced || s.eliminated.length > nEliminated then .ok (s, true)
    else restLoop fuel nDeduced nEliminated rest s

/-- The loop of `try_solve`, src/strategy/solver.rs lines 259-282, with `deduce_all` (src/strategy/strategies.rs
lines 108-114). -/
def solveLoop (fuel0 : Nat) (first : Strategy) (rest : List Strategy) : Nat → Solver → Res Solver
  | 0, _ => .timeout
  | fuel + 1, s =>
    if s.isSolved then .ok s
    else do
      let nDeduced := s.deduced.length
      let nEliminated := s.eliminated.length
      let (s, ok) ← first.deduce fuel0 false true s
      if !ok then .ok s
      else if s.deduced.length > nDeduced then solveLoop fuel0 first rest fuel s
      else do
        let (s, again) ← restLoop fuel0 nDeduced nEliminated rest s
        if again then solveLoop fuel0 first rest fuel s else .ok s

/-- `try_solve`, src/strategy/solver.rs lines 251-284. -/
def Solver.trySolve (fuel : Nat) (strategies : List Strategy) (s : Solver) : Res Solver :=
  match strategies with
  | [] => .ok s
  | first :: rest => solveLoop fuel first rest fuel s

/-- `Deductions`, src/strategy/deduction.rs lines 13-17. -/
structure Deductions where
  deductions : List RangeDeduction
  deduced : List Candidate
  eliminated : List Candidate

/-- `solve`, src/strategy/solver.rs lines 240-247, with `into_deductions` (lines 226-229); `Except.ok` is `Ok`,
`Except.error` is `Err`. -/
def Solver.solve (fuel : Nat) (strategies : List Strategy) (s : Solver) :
    Res (Except (Grid × Deductions) (Grid × Deductions)) := do
  let s ← s.trySolve fuel strategies
  let s := s.updateGrid
  let result := (s.grid, { deductions := s.deductions, deduced := s.deduced, eliminated := s.eliminated : Deductions })
  if s.isSolved then .ok (.ok result) else .ok (.error result)

/-! ## Looking at the state -/

/-- `to_sudoku`, src/strategy/solver.rs lines 162-165. -/
def Solver.toSudoku (s : Solver) : Solver × Grid := (s.updateGrid, s.updateGrid.grid)

/-- `Digit::new` of a grid entry: panics outside `1..9`. -/
def digitOf (v : UInt8) : Res Digit := if h : 1 ≤ v.toNat ∧ v.toNat ≤ 9 then .ok ⟨v.toNat - 1, by omega⟩ else .panic

/-- The state of a cell after the caches were updated, src/strategy/solver.rs lines 177-189 and 198-204. -/
def Solver.stateOf (s : Solver) (cell : Fin 81) : Res CellState :=
  if s.grid[cell] ≠ 0 then do .ok (.digit (← digitOf s.grid[cell])) else .ok (.candidates s.cp[cell])

/-- `grid_state`, src/strategy/solver.rs lines 168-191 (on a clone). -/
def Solver.gridState (fuel : Nat) (s : Solver) : Res (List CellState) := do
  let (s, _) ← s.updateGrid.update fuel false false
  (List.finRange 81).mapM s.stateOf

/-- `cell_state`, src/strategy/solver.rs lines 194-205. -/
def Solver.cellState (fuel : Nat) (s : Solver) (cell : Fin 81) : Res (Solver × CellState) := do
  let (s, _) ← s.updateGrid.update fuel false false
  .ok (s, ← s.stateOf cell)

/-- `insert_candidate`, src/strategy/solver.rs lines 209-223 (`deductions.pop()` drops the last element, if any). -/
def Solver.insertCandidate (s : Solver) (e : Candidate) : Res (Solver × Bool) := do
  let (s, ok) ← s.updateGrid.pushNewCandidate e (.nakedSingles e)
  if ok then .ok ({ s with deductions := s.deductions.dropLast }, true) else .ok (s, false)

/-! ## Deductions -/

/-- `&eliminated[range]`. -/
def slice (eliminated : List Candidate) (rg : Nat × Nat) : Res (List Candidate) :=
  if rg.1 ≤ rg.2 ∧ rg.2 ≤ eliminated.length then .ok ((eliminated.take rg.2).drop rg.1) else .panic

/-- `with_slices`, src/strategy/deduction.rs lines 203-241. -/
def withSlices (d : RangeDeduction) (eliminated : List Candidate) : Res (Deduction (List Candidate)) :=
  match d with
  | .nakedSingles c => .ok (.nakedSingles c)
  | .hiddenSingles c h => .ok (.hiddenSingles c h)
  | .lockedCandidates digit miniline isPointing rg => do .ok (.lockedCandidates digit miniline isPointing (← slice eliminated rg))
  | .subsets house positions digits rg => do .ok (.subsets house positions digits (← slice eliminated rg))
  | .basicFish digit lines positions rg => do .ok (.basicFish digit lines positions (← slice eliminated rg))
  | .fish digit base cover rg => do .ok (.fish digit base cover (← slice eliminated rg))
  | .wing hinge hingeDigits pincers rg => do .ok (.wing hinge hingeDigits pincers (← slice eliminated rg))
  | .avoidableRectangle _ _ => .panic

/-- `Deductions::get`, src/strategy/deduction.rs lines 47-51. -/
def Deductions.get (ds : Deductions) (i : Nat) : Res (Option (Deduction (List Candidate))) :=
  match ds.deductions[i]? with
  | none => .ok none
  | some d => do .ok (some (← withSlices d ds.eliminated))

/-- `Deduction::strategy`, src/strategy/deduction.rs lines 132-196. -/
def Deduction.strategy (d : Deduction (List Candidate)) : Res Strategy :=
  match d with
  | .nakedSingles _ => .ok .nakedSingles
  | .hiddenSingles _ _ => .ok .hiddenSingles
  | .lockedCandidates _ _ _ _ => .ok .lockedCandidates
  | .basicFish _ _ positions _ =>
    match (Bitset.len positions).toNat with
    | 2 => .ok .xWing
    | 3 => .ok .swordfish
    | 4 => .ok .jellyfish
    | _ => .panic
  | .subsets house positions _ conflicts =>
    match conflicts with
    | [] => .panic
    | c :: _ =>
      let pos := match Pos.categorize house with
        | .row _ => Pos.rowPos c.cell
        | .col _ => Pos.colPos c.cell
        | .block _ => Pos.blockPos c.cell
      match Bitset.overlaps (Bitset.asSet 16 pos.val) positions, (Bitset.len positions).toNat with
      | false, 2 => .ok .nakedPairs
      | false, 3 => .ok .nakedTriples
      | false, 4 => .ok .nakedQuads
      | true, 2 => .ok .hiddenPairs
      | true, 3 => .ok .hiddenTriples
      | true, 4 => .ok .hiddenQuads
      | _, _ => .panic
  | .fish _ base cover _ =>
    match isMutant base || isMutant cover, (Bitset.len base).toNat with
    | false, 2 => .ok .xWing
    | false, 3 => .ok .swordfish
    | false, 4 => .ok .jellyfish
    | true, 3 => .ok .mutantSwordfish
    | true, 4 => .ok .mutantJellyfish
    | _, _ => .panic
  | .wing _ hingeDigits _ _ =>
    match (Bitset.len hingeDigits).toNat with
    | 2 => .ok .xyWing
    | 3 => .ok .xyzWing
    | _ => .panic
  | .avoidableRectangle _ _ => .panic

end Verif.Strat
