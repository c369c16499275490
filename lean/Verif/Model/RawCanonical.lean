import Verif.Model.Canonical
import Verif.Model.RawPositions

/-!
# Model of `/repo/src/board/canonicalization.rs` on machine integers

`Verif.Model.Canonical` computes the numbers of rows, columns, bands and stacks with natural numbers and fails whenever a
`debug_assert!` does.  Here these numbers are `u8`s with the checked operations of `Verif.Model.RawPositions`: `debug` says
whether debug assertions and overflow checks are compiled in.  What computes with `usize` or only moves cells is taken from
`Verif.Model.Canonical`: `usize` has at least 16 bits and the numbers are at most 362880 (`u32`) or 81.
-/
namespace Verif.RawCanon

open Verif Sudoku Raw

variable {α : Type}

/-- `Permutation3`, lines 33-37. -/
structure Permutation3 where
  choice3 : UInt8
  choice2 : UInt8

/-- `Permutation3::from_choices`, lines 100-104. -/
def Permutation3.fromChoices (debug : Bool) (choice3 choice2 : UInt8) : Res Permutation3 := do
  debugAssert debug (decide (choice3 < 3))
  debugAssert debug (decide (choice2 < 2))
  .ok ⟨choice3, choice2⟩

/-- `Permutation3::new`, lines 106-109. -/
def Permutation3.new (debug : Bool) (perm : UInt8) : Res Permutation3 := do
  debugAssert debug (decide (perm < 6))
  .ok ⟨perm % 3, perm / 3⟩

/-- `ChuteLinePermutations`, lines 14-17. -/
structure ChuteLinePermutations where
  p0 : Permutation3
  p1 : Permutation3
  p2 : Permutation3

/-- `Transformation`, lines 3-12. -/
structure Transformation where
  transpose : Bool
  bandPermutation : Permutation3
  stackPermutation : Permutation3
  rowPermutations : ChuteLinePermutations
  colPermutations : ChuteLinePermutations
  digitRemapping : Vector UInt8 9

/-- `MinBandTransformation`, lines 19-31. -/
structure MinBandTransformation where
  band : UInt8
  transposed : Bool
  rowPermutation : Permutation3
  stackPermutation : Permutation3
  colPermutations : ChuteLinePermutations
  digitRemapping : Vector UInt8 9

/-- `swap_cells`, lines 441-450. -/
def swapCells (debug : Bool) {n : Nat} : List (Nat × Nat) → Vector α n → Res (Vector α n)
  | [], v => .ok v
  | (idx1, idx2) :: rest, v => do
    debugAssert debug (decide (idx1 ≠ idx2))
    if h1 : idx1 < n then
      if h2 : idx2 < n then
        let a := v[idx1]
        let b := v[idx2]
        swapCells debug rest ((v.set idx1 b).set idx2 a)
      else .panic
    else .panic

/-- `swap_rows`, lines 360-372. -/
def swapRows (debug : Bool) {n : Nat} (v : Vector α n) (row1 row2 : UInt8) : Res (Vector α n) :=
  if row1 = row2 then .ok v
  else do
    debugAssert debug (decide (row1 < 9))
    debugAssert debug (decide (row2 < 9))
    let start1 := (← mul debug row1 9).toNat
    let start2 := (← mul debug row2 9).toNat
    swapCells debug ((List.range' start1 9).zip (List.range' start2 9)) v

/-- `swap_cols`, lines 374-384. -/
def swapCols (debug : Bool) {n : Nat} (v : Vector α n) (col1 col2 : UInt8) : Res (Vector α n) :=
  if col1 = col2 then .ok v
  else do
    debugAssert debug (decide (col1 < 9))
    debugAssert debug (decide (col2 < 9))
    swapCells debug ((List.range 9).map (fun row => (row * 9 + col1.toNat, row * 9 + col2.toNat))) v

/-- `swap_stacks`, lines 386-395. -/
def swapStacks (debug : Bool) {n : Nat} (v : Vector α n) (stack1 stack2 : UInt8) : Res (Vector α n) :=
  if stack1 = stack2 then .ok v
  else do
    debugAssert debug (decide (stack1 < 3))
    debugAssert debug (decide (stack2 < 3))
    [0, 1, 2].foldlM (fun v innerCol => do
      let col1 ← add debug (← mul debug stack1 3) innerCol
      let col2 ← add debug (← mul debug stack2 3) innerCol
      swapCols debug v col1 col2) v

/-- `swap_bands`, lines 397-406. -/
def swapBands (debug : Bool) {n : Nat} (v : Vector α n) (band1 band2 : UInt8) : Res (Vector α n) :=
  if band1 = band2 then .ok v
  else do
    debugAssert debug (decide (band1 < 3))
    debugAssert debug (decide (band2 < 3))
    [0, 1, 2].foldlM (fun v innerRow => do
      let row1 ← add debug (← mul debug band1 3) innerRow
      let row2 ← add debug (← mul debug band2 3) innerRow
      swapRows debug v row1 row2) v

/-- `swap_cols_in_band`, lines 408-419. -/
def swapColsInBand (debug : Bool) {n : Nat} (v : Vector α n) (col1 col2 : UInt8) : Res (Vector α n) :=
  if col1 = col2 then .ok v
  else do
    debugAssert debug (decide (col1 < 9))
    debugAssert debug (decide (col2 < 9))
    swapCells debug ((List.range 3).map (fun row => (row * 9 + col1.toNat, row * 9 + col2.toNat))) v

/-- `swap_stack_in_band`, lines 421-431. -/
def swapStackInBand (debug : Bool) {n : Nat} (v : Vector α n) (stack1 stack2 : UInt8) : Res (Vector α n) :=
  if stack1 = stack2 then .ok v
  else do
    debugAssert debug (decide (stack1 < 3))
    debugAssert debug (decide (stack2 < 3))
    [0, 1, 2].foldlM (fun v innerCol => do
      let col1 ← add debug (← mul debug stack1 3) innerCol
      let col2 ← add debug (← mul debug stack2 3) innerCol
      swapColsInBand debug v col1 col2) v

/-- `swap_rows_in_band`, lines 433-437. -/
def swapRowsInBand (debug : Bool) {n : Nat} (v : Vector α n) (row1 row2 : UInt8) : Res (Vector α n) := do
  debugAssert debug (decide (row1 < 3))
  debugAssert debug (decide (row2 < 3))
  swapRows debug v row1 row2

/-- `transpose`, lines 349-357 (its rows and columns are `usize`). -/
def transpose (debug : Bool) {n : Nat} (v : Vector α n) : Res (Vector α n) :=
  swapCells debug ((List.range 9).flatMap (fun row =>
    (List.range' (row + 1) (9 - (row + 1))).map (fun col => (row * 9 + col, col * 9 + row)))) v

/-- `permute`, lines 339-347, and `Permutation3::apply`, lines 119-121. -/
def permute (debug : Bool) {β : Type} (v : β) (p : Permutation3) (offset : UInt8)
    (swapper : β → UInt8 → UInt8 → Res β) : Res β := do
  let to3 ← add debug offset p.choice3
  let v ← swapper v offset to3
  let second ← add debug offset 1
  let to2 ← add debug (← add debug offset 1) p.choice2
  swapper v second to2

/-- `ChuteLinePermutations::apply`, lines 92-96. -/
def ChuteLinePermutations.apply (debug : Bool) {β : Type} (ps : ChuteLinePermutations) (v : β)
    (f : β → UInt8 → UInt8 → Res β) : Res β := do
  let v ← permute debug v ps.p0 (← mul debug 3 0) f
  let v ← permute debug v ps.p1 (← mul debug 3 1) f
  permute debug v ps.p2 (← mul debug 3 2) f

/-- `Transformation::apply`, lines 40-57. -/
def Transformation.apply (debug : Bool) (t : Transformation) (g : Grid) : Res Grid := do
  let g ← (if t.transpose then RawCanon.transpose debug g else .ok g)
  let g ← permute debug g t.bandPermutation 0 (swapBands debug)
  let g ← permute debug g t.stackPermutation 0 (swapStacks debug)
  let g ← t.colPermutations.apply debug g (swapCols debug)
  let g ← t.rowPermutations.apply debug g (swapRows debug)
  Canon.applyDigitMapping t.digitRemapping g

/-- `Transformation::random`, lines 59-88, for given random numbers. -/
def random (debug : Bool) (d : Canon.Draws) : Res Transformation := do
  let digits ← Canon.randomDigits d.permutation
  let band ← Permutation3.new debug (UInt8.ofNat d.band)
  let stack ← Permutation3.new debug (UInt8.ofNat d.stack)
  let r0 ← Permutation3.new debug (UInt8.ofNat d.rows.1)
  let r1 ← Permutation3.new debug (UInt8.ofNat d.rows.2.1)
  let r2 ← Permutation3.new debug (UInt8.ofNat d.rows.2.2)
  let c0 ← Permutation3.new debug (UInt8.ofNat d.cols.1)
  let c1 ← Permutation3.new debug (UInt8.ofNat d.cols.2.1)
  let c2 ← Permutation3.new debug (UInt8.ofNat d.cols.2.2)
  .ok { transpose := d.transpose, bandPermutation := band, stackPermutation := stack,
        rowPermutations := ⟨r0, r1, r2⟩, colPermutations := ⟨c0, c1, c2⟩, digitRemapping := digits }

/-- `Sudoku::shuffle` and `Sudoku::shuffled`, src/board/sudoku.rs lines 685-694, for given random numbers. -/
def shuffle (debug : Bool) (d : Canon.Draws) (g : Grid) : Res Grid := do
  let t ← random debug d
  t.apply debug g

/-! ## Canonicalization -/

/-- `band_minimum` and `minimal_transformations`. -/
structure BandState where
  minimum : Vector UInt8 16
  transformations : List MinBandTransformation

/-- The innermost loop, lines 233-264. -/
def lastBoxStep (debug : Bool) (bandNr : UInt8) (transposed : Bool) (firstBox : UInt8) (rowsPerm colsPerm : Permutation3)
    (secondBoxChoice secondBoxFirstCol secondBoxSecondCol : UInt8) (band : Vector UInt8 27)
    (st : BandState × Vector UInt8 9) (perm : UInt8) : Res (BandState × Vector UInt8 9) := do
  let lastPerm ← Permutation3.new debug perm
  let band ← permute debug band lastPerm 6 (swapColsInBand debug)
  let mapping ← Canon.setDigit st.2 band[6] 7
  let mapping ← Canon.setDigit mapping band[7] 8
  let mapping ← Canon.setDigit mapping band[8] 9
  let value ← Canon.bandValue mapping band
  if arrayCmp value st.1.minimum.toList = .gt then .ok (st.1, mapping)
  else do
    let st' ← (if arrayCmp value st.1.minimum.toList = .lt then
      if h : value.toArray.size = 16 then Res.ok (BandState.mk ⟨value.toArray, h⟩ []) else .panic
      else Res.ok st.1)
    let sp ← Permutation3.fromChoices debug firstBox secondBoxChoice
    let c1 ← Permutation3.fromChoices debug secondBoxFirstCol secondBoxSecondCol
    .ok ({ st' with transformations := st'.transformations ++ [{
        band := bandNr, transposed := transposed, rowPermutation := rowsPerm, stackPermutation := sp,
        colPermutations := ⟨colsPerm, c1, lastPerm⟩, digitRemapping := mapping }] }, mapping)

/-- The body of the loop over `cols_perm`, lines 201-265, after the columns of the first box have been permuted. -/
def secondBoxStep (debug : Bool) (bandNr : UInt8) (transposed : Bool) (firstBox : UInt8)
    (rowsPerm colsPerm : Permutation3) (band : Vector UInt8 27) (st : BandState) : Res BandState := do
  let digit4 := band[9]
  match ((band.toList.drop 3).take 6).findIdx? (fun num => num == digit4) with
  | none => .panic
  | some pos4 => do
    let pos4 := UInt8.ofNat pos4
    let secondBoxChoice := pos4 / 3
    let secondBoxFirstCol := pos4 % 3
    let band ← swapStackInBand debug band 1 (← add debug 1 secondBoxChoice)
    let band ← swapColsInBand debug band 3 (← add debug 3 secondBoxFirstCol)
    let digit5 := band[10]
    let secondBoxSecondCol : UInt8 := if band[4] ≠ digit5 then 1 else 0
    let band ← swapColsInBand debug band 4 (← add debug 4 secondBoxSecondCol)
    if band[4] ≠ digit5 then .ok st
    else if st.minimum[0] = 6 ∧ band[11] ≠ band[5] then .ok st
    else do
      let mapping ← (List.range 6).foldlM (fun (m : Vector UInt8 9) k =>
        if h : k < 27 then Canon.setDigit m band[k] (UInt8.ofNat (k + 1)) else .panic) (Vector.replicate 9 0)
      let (st, _) ← [0, 1, 2, 3, 4, 5].foldlM
        (lastBoxStep debug bandNr transposed firstBox rowsPerm colsPerm secondBoxChoice secondBoxFirstCol
          secondBoxSecondCol band) (st, mapping)
      .ok st

/-- `&sudoku.0[first_cell..][..27]`. -/
def bandAt (g : Grid) (first : Nat) : Res (Vector UInt8 27) :=
  if h : first + 27 ≤ 81 then .ok (Vector.ofFn (fun i : Fin 27 => g[first + i.val]'(by omega)))
  else .panic

/-- `find_minlex_band_transformation`, lines 178-268. -/
def findMinlexBand (debug : Bool) (g : Grid) (bandNr : UInt8) (transposed : Bool) (st : BandState) : Res BandState := do
  let firstCell ← mul debug bandNr 27
  let band ← bandAt g firstCell.toNat
  [0, 1, 2].foldlM (fun st firstBox => do
    let band ← swapStackInBand debug band 0 firstBox
    [0, 1, 2, 3, 4, 5].foldlM (fun st rp => do
      let rowsPerm ← Permutation3.new debug rp
      let band ← permute debug band rowsPerm 0 (swapRowsInBand debug)
      [0, 1, 2, 3, 4, 5].foldlM (fun st cp => do
        let colsPerm ← Permutation3.new debug cp
        let band ← permute debug band colsPerm 0 (swapColsInBand debug)
        secondBoxStep debug bandNr transposed firstBox rowsPerm colsPerm band st) st) st) st

/-- `(..).min_by_key(|row| key(row))` on a nonempty range: the first minimum. -/
def minByKey (key : UInt8 → Res (List UInt8)) : List UInt8 → UInt8 → Res UInt8
  | [], best => .ok best
  | x :: xs, best => do
    let kb ← key best
    let kx ← key x
    if arrayCmp kb kx = .gt then minByKey key xs x else minByKey key xs best

/-- `sort_rows_in_band_and_find_permutation`, lines 327-337. -/
def sortRows (debug : Bool) (g : Grid) (bandNr : UInt8) : Res (Grid × Permutation3) := do
  let band ← Canon.getBand g bandNr.toNat
  let firstChoice ← minByKey (fun row => .ok (Canon.bandRow band row.toNat)) [1, 2] 0
  let band ← swapRowsInBand debug band 0 firstChoice
  let secondChoice ← minByKey (fun row => do .ok (Canon.bandRow band (← add debug row 1).toNat)) [1] 0
  let band ← swapRowsInBand debug band 1 (← add debug 1 secondChoice)
  let p ← Permutation3.fromChoices debug firstChoice secondChoice
  .ok (Canon.putBand g bandNr.toNat band, p)

/-- `find_minimal_transformation_for_band`, lines 272-324. -/
def findMinimalForBand (debug : Bool) (sudoku : Grid) (bt : MinBandTransformation) : Res (Grid × Transformation) := do
  let g ← (if bt.transposed then transpose debug sudoku else .ok sudoku)
  let g ← swapBands debug g 0 bt.band
  let g ← permute debug g bt.rowPermutation 0 (swapRows debug)
  let g ← permute debug g bt.stackPermutation 0 (swapStacks debug)
  let g ← bt.colPermutations.apply debug g (swapCols debug)
  let g ← Canon.applyDigitMapping bt.digitRemapping g
  let (g, rowPerm2) ← sortRows debug g 1
  let (g, rowPerm3) ← sortRows debug g 2
  let needsBandSwitch := decide (arrayCmp ((g.toList.drop 27).take 27) (g.toList.drop 54) = .gt)
  let bandChoice2 : UInt8 := if needsBandSwitch then 1 else 0
  let (rowPerm2, rowPerm3) := if needsBandSwitch then (rowPerm3, rowPerm2) else (rowPerm2, rowPerm3)
  let g ← swapBands debug g 1 (← add debug 1 bandChoice2)
  let bp ← Permutation3.fromChoices debug bt.band bandChoice2
  .ok (g, { transpose := bt.transposed, bandPermutation := bp, stackPermutation := bt.stackPermutation,
            rowPermutations := ⟨bt.rowPermutation, rowPerm2, rowPerm3⟩,
            colPermutations := bt.colPermutations, digitRemapping := bt.digitRemapping })

/-- `Iterator::min_by` with the counting comparison, lines 156-171. -/
def minByCount : List (Grid × Transformation) → (Grid × Transformation) → Nat →
    (Grid × Transformation) × Nat
  | [], best, count => (best, count)
  | x :: xs, best, count =>
    match Sudoku.cmp best.1 x.1 with
    | .gt => minByCount xs x 1
    | .lt => minByCount xs best count
    | .eq => minByCount xs best (count + 1)

/-- `find_canonical_sudoku_and_transformation`, lines 133-172. -/
def findCanonical (debug : Bool) (sudoku : Grid) : Res (Grid × Transformation × Nat) := do
  let st ← [false, true].foldlM (fun st transp => do
    let g ← (if transp then transpose debug sudoku else .ok sudoku)
    [0, 1, 2].foldlM (fun st band => findMinlexBand debug g band transp st) st)
    (BandState.mk (Vector.replicate 16 9) [])
  let results ← st.transformations.mapM (findMinimalForBand debug sudoku)
  match results with
  | [] => .panic
  | x :: xs =>
    let r := minByCount xs x 1
    .ok (r.1.1, r.1.2, r.2)

/-- `canonicalized`, src/board/sudoku.rs lines 711-725. -/
def canonicalized (debug : Bool) (fuel : Nat) (g : Grid) : Res (Option (Grid × Nat)) := do
  let solved ← (if isSolved g then Res.ok (some g) else solution fuel g)
  match solved with
  | none => .ok none
  | some solved => do
    let (_, transformation, n) ← findCanonical debug solved
    let sudoku ← transformation.apply debug g
    .ok (some (sudoku, n))

end Verif.RawCanon
