import Verif.Model.Text

/-!
# Model of `/repo/src/board/canonicalization.rs` and of `shuffle`, `shuffled`, `canonicalized`
(`/repo/src/board/sudoku.rs` lines 685-725)

The functions that only move cells are generic in the type of the cells (the code uses `u8` throughout).
`u8` arithmetic on row, column, band and stack numbers is done in `Nat`; the numbers stay below 81.
-/
namespace Verif.Canon

open Verif Sudoku

variable {α : Type}

/-- `Permutation3`, canonicalization.rs lines 33-37. -/
structure Permutation3 where
  choice3 : Nat
  choice2 : Nat
deriving DecidableEq, Repr

/-- `Permutation3::from_choices`, canonicalization.rs lines 100-104. -/
def Permutation3.fromChoices (choice3 choice2 : Nat) : Res Permutation3 := do
  Res.assert (decide (choice3 < 3))
  Res.assert (decide (choice2 < 2))
  .ok ⟨choice3, choice2⟩

/-- `Permutation3::new`, canonicalization.rs lines 106-109. -/
def Permutation3.new (perm : Nat) : Res Permutation3 := do
  Res.assert (decide (perm < 6))
  .ok ⟨perm % 3, perm / 3⟩

/-- `ChuteLinePermutations`, canonicalization.rs lines 14-17: an array of three. -/
structure ChuteLinePermutations where
  p0 : Permutation3
  p1 : Permutation3
  p2 : Permutation3
deriving DecidableEq, Repr

/-- `Transformation`, canonicalization.rs lines 3-12. -/
structure Transformation where
  transpose : Bool
  bandPermutation : Permutation3
  stackPermutation : Permutation3
  rowPermutations : ChuteLinePermutations
  colPermutations : ChuteLinePermutations
  digitRemapping : Vector UInt8 9
deriving DecidableEq, Repr

/-- `MinBandTransformation`, canonicalization.rs lines 19-31. -/
structure MinBandTransformation where
  band : Nat
  transposed : Bool
  rowPermutation : Permutation3
  stackPermutation : Permutation3
  colPermutations : ChuteLinePermutations
  digitRemapping : Vector UInt8 9
deriving DecidableEq, Repr

/-- `swap_cells`, canonicalization.rs lines 441-450. -/
def swapCells {n : Nat} : List (Nat × Nat) → Vector α n → Res (Vector α n)
  | [], v => .ok v
  | (idx1, idx2) :: rest, v =>
    if idx1 = idx2 then .panic
    else if h1 : idx1 < n then
      if h2 : idx2 < n then
        let a := v[idx1]
        let b := v[idx2]
        swapCells rest ((v.set idx1 b).set idx2 a)
      else .panic
    else .panic

/-- `swap_rows`, canonicalization.rs lines 360-372 (used on boards and, by `swap_rows_in_band`, on bands). -/
def swapRows {n : Nat} (v : Vector α n) (row1 row2 : Nat) : Res (Vector α n) :=
  if row1 = row2 then .ok v
  else do
    Res.assert (decide (row1 < 9))
    Res.assert (decide (row2 < 9))
    let start1 := row1 * 9
    let start2 := row2 * 9
    swapCells ((List.range' start1 9).zip (List.range' start2 9)) v

/-- `swap_cols`, canonicalization.rs lines 374-384. -/
def swapCols {n : Nat} (v : Vector α n) (col1 col2 : Nat) : Res (Vector α n) :=
  if col1 = col2 then .ok v
  else do
    Res.assert (decide (col1 < 9))
    Res.assert (decide (col2 < 9))
    swapCells ((List.range 9).map (fun row => (row * 9 + col1, row * 9 + col2))) v

/-- `swap_stacks`, canonicalization.rs lines 386-395. -/
def swapStacks {n : Nat} (v : Vector α n) (stack1 stack2 : Nat) : Res (Vector α n) :=
  if stack1 = stack2 then .ok v
  else do
    Res.assert (decide (stack1 < 3))
    Res.assert (decide (stack2 < 3))
    (List.range 3).foldlM (fun v innerCol => swapCols v (stack1 * 3 + innerCol) (stack2 * 3 + innerCol)) v

/-- `swap_bands`, canonicalization.rs lines 397-406. -/
def swapBands {n : Nat} (v : Vector α n) (band1 band2 : Nat) : Res (Vector α n) :=
  if band1 = band2 then .ok v
  else do
    Res.assert (decide (band1 < 3))
    Res.assert (decide (band2 < 3))
    (List.range 3).foldlM (fun v innerRow => swapRows v (band1 * 3 + innerRow) (band2 * 3 + innerRow)) v

/-- `swap_cols_in_band`, canonicalization.rs lines 408-419. -/
def swapColsInBand {n : Nat} (v : Vector α n) (col1 col2 : Nat) : Res (Vector α n) :=
  if col1 = col2 then .ok v
  else do
    Res.assert (decide (col1 < 9))
    Res.assert (decide (col2 < 9))
    swapCells ((List.range 3).map (fun row => (row * 9 + col1, row * 9 + col2))) v

/-- `swap_stack_in_band`, canonicalization.rs lines 421-431. -/
def swapStackInBand {n : Nat} (v : Vector α n) (stack1 stack2 : Nat) : Res (Vector α n) :=
  if stack1 = stack2 then .ok v
  else do
    Res.assert (decide (stack1 < 3))
    Res.assert (decide (stack2 < 3))
    (List.range 3).foldlM (fun v innerCol => swapColsInBand v (stack1 * 3 + innerCol) (stack2 * 3 + innerCol)) v

/-- `swap_rows_in_band`, canonicalization.rs lines 433-437. -/
def swapRowsInBand {n : Nat} (v : Vector α n) (row1 row2 : Nat) : Res (Vector α n) := do
  Res.assert (decide (row1 < 3))
  Res.assert (decide (row2 < 3))
  swapRows v row1 row2

/-- `transpose`, canonicalization.rs lines 349-357. -/
def transpose {n : Nat} (v : Vector α n) : Res (Vector α n) :=
  swapCells ((List.range 9).flatMap (fun row =>
    (List.range' (row + 1) (9 - (row + 1))).map (fun col => (row * 9 + col, col * 9 + row)))) v

/-- `permute`, canonicalization.rs lines 339-347, and `Permutation3::apply`, lines 119-121. -/
def permute {β : Type} (v : β) (p : Permutation3) (offset : Nat) (swapper : β → Nat → Nat → Res β) :
    Res β := do
  let v ← swapper v offset (offset + p.choice3)
  swapper v (offset + 1) (offset + 1 + p.choice2)

/-- `ChuteLinePermutations::apply`, canonicalization.rs lines 92-96. -/
def ChuteLinePermutations.apply {β : Type} (ps : ChuteLinePermutations) (v : β)
    (f : β → Nat → Nat → Res β) : Res β := do
  let v ← permute v ps.p0 (3 * 0) f
  let v ← permute v ps.p1 (3 * 1) f
  permute v ps.p2 (3 * 2) f

/-- `digit_remapping[digit as usize - 1]`: panics for the digit 0 (subtraction overflow) and if out of bounds. -/
def lookupDigit (m : Vector UInt8 9) (digit : UInt8) : Res UInt8 :=
  if digit = 0 then .panic
  else if h : digit.toNat - 1 < 9 then .ok (m[digit.toNat - 1]) else .panic

/-- `apply_digit_mapping`, canonicalization.rs lines 124-131. -/
def applyDigitMapping (m : Vector UInt8 9) (g : Grid) : Res Grid :=
  (List.finRange 81).foldlM (fun (g : Grid) (i : Fin 81) =>
    if g[i] = 0 then .ok g
    else do
      let d ← lookupDigit m g[i]
      Res.ok (g.set i d)) g

/-- `Transformation::apply`, canonicalization.rs lines 40-57. -/
def Transformation.apply (t : Transformation) (g : Grid) : Res Grid := do
  let g ← (if t.transpose then Canon.transpose g else .ok g)
  let g ← permute g t.bandPermutation 0 swapBands
  let g ← permute g t.stackPermutation 0 swapStacks
  let g ← t.colPermutations.apply g swapCols
  let g ← t.rowPermutations.apply g swapRows
  applyDigitMapping t.digitRemapping g

/-- `digits.swap(i, j)`. -/
def swapAt {n : Nat} (v : Vector α n) (i j : Nat) : Res (Vector α n) :=
  if h1 : i < n then
    if h2 : j < n then .ok ((v.set i v[j]).set j v[i]) else .panic
  else .panic

/-- The digits of `Transformation::random`, canonicalization.rs lines 66-74, for the number drawn. -/
def randomDigits (permutation : Nat) : Res (Vector UInt8 9) := do
  let (_, digits) ← [9, 8, 7, 6, 5, 4, 3, 2].foldlM
    (fun (st : Nat × Vector UInt8 9) nChoices => do
      let num := st.1 % nChoices
      let permutation := st.1 / nChoices
      let digits ← swapAt st.2 (nChoices - 1) num
      Res.ok (permutation, digits))
    (permutation, #v[1, 2, 3, 4, 5, 6, 7, 8, 9])
  .ok digits

/-- The random numbers drawn by `Transformation::random`: one of `0..9!`, a `bool`, and eight of `0..6`. -/
structure Draws where
  permutation : Fin 362880
  transpose : Bool
  band : Fin 6
  stack : Fin 6
  rows : Fin 6 × Fin 6 × Fin 6
  cols : Fin 6 × Fin 6 × Fin 6

/-- `Transformation::random`, canonicalization.rs lines 59-88, for given random numbers. -/
def random (d : Draws) : Res Transformation := do
  let digits ← randomDigits d.permutation
  let band ← Permutation3.new d.band
  let stack ← Permutation3.new d.stack
  let r0 ← Permutation3.new d.rows.1
  let r1 ← Permutation3.new d.rows.2.1
  let r2 ← Permutation3.new d.rows.2.2
  let c0 ← Permutation3.new d.cols.1
  let c1 ← Permutation3.new d.cols.2.1
  let c2 ← Permutation3.new d.cols.2.2
  .ok { transpose := d.transpose, bandPermutation := band, stackPermutation := stack,
        rowPermutations := ⟨r0, r1, r2⟩, colPermutations := ⟨c0, c1, c2⟩, digitRemapping := digits }

/-- `Sudoku::shuffle` and `Sudoku::shuffled`, src/board/sudoku.rs lines 685-694, for given random numbers. -/
def shuffle (d : Draws) (g : Grid) : Res Grid := do
  let t ← random d
  t.apply g

/-! ## Canonicalization -/

/-- `mapping[digit as usize - 1] = new`. -/
def setDigit (m : Vector UInt8 9) (digit new : UInt8) : Res (Vector UInt8 9) :=
  if digit = 0 then .panic
  else if h : digit.toNat - 1 < 9 then .ok (m.set (digit.toNat - 1) new) else .panic

/-- `band_minimum` and `minimal_transformations`. -/
structure BandState where
  minimum : Vector UInt8 16
  transformations : List MinBandTransformation

/-- `for cell in &mut band[11..] { *cell = mapping[*cell as usize - 1]; }` followed by `&band[11..]`,
canonicalization.rs lines 241-245. -/
def bandValue (mapping : Vector UInt8 9) (band : Vector UInt8 27) : Res (List UInt8) :=
  (band.toList.drop 11).mapM (lookupDigit mapping)

/-- The innermost loop, canonicalization.rs lines 233-264, for one permutation of the last three columns. -/
def lastBoxStep (bandNr : Nat) (transposed : Bool) (firstBox : Nat) (rowsPerm colsPerm : Permutation3)
    (secondBoxChoice secondBoxFirstCol secondBoxSecondCol : Nat) (band : Vector UInt8 27)
    (st : BandState × Vector UInt8 9) (perm : Nat) : Res (BandState × Vector UInt8 9) := do
  let lastPerm ← Permutation3.new perm
  let band ← permute band lastPerm 6 swapColsInBand
  let mapping ← setDigit st.2 band[6] 7
  let mapping ← setDigit mapping band[7] 8
  let mapping ← setDigit mapping band[8] 9
  let value ← bandValue mapping band
  if arrayCmp value st.1.minimum.toList = .gt then .ok (st.1, mapping)
  else do
    let st' ← (if arrayCmp value st.1.minimum.toList = .lt then
      if h : value.toArray.size = 16 then Res.ok (BandState.mk ⟨value.toArray, h⟩ []) else .panic
      else Res.ok st.1)
    let sp ← Permutation3.fromChoices firstBox secondBoxChoice
    let c1 ← Permutation3.fromChoices secondBoxFirstCol secondBoxSecondCol
    .ok ({ st' with transformations := st'.transformations ++ [{
        band := bandNr, transposed := transposed, rowPermutation := rowsPerm, stackPermutation := sp,
        colPermutations := ⟨colsPerm, c1, lastPerm⟩, digitRemapping := mapping }] }, mapping)

/-- The body of the loop over `cols_perm`, canonicalization.rs lines 201-265, after the columns of
the first box have been permuted. -/
def secondBoxStep (bandNr : Nat) (transposed : Bool) (firstBox : Nat) (rowsPerm colsPerm : Permutation3)
    (band : Vector UInt8 27) (st : BandState) : Res BandState := do
  let digit4 := band[9]
  match ((band.toList.drop 3).take 6).findIdx? (fun num => num == digit4) with
  | none => .panic
  | some pos4 => do
    let secondBoxChoice := pos4 / 3
    let secondBoxFirstCol := pos4 % 3
    let band ← swapStackInBand band 1 (1 + secondBoxChoice)
    let band ← swapColsInBand band 3 (3 + secondBoxFirstCol)
    let digit5 := band[10]
    let secondBoxSecondCol := if band[4] ≠ digit5 then 1 else 0
    let band ← swapColsInBand band 4 (4 + secondBoxSecondCol)
    if band[4] ≠ digit5 then .ok st
    else if st.minimum[0] = 6 ∧ band[11] ≠ band[5] then .ok st
    else do
      let mapping ← (List.range 6).foldlM (fun (m : Vector UInt8 9) k =>
        if h : k < 27 then setDigit m band[k] (UInt8.ofNat (k + 1)) else .panic) (Vector.replicate 9 0)
      let (st, _) ← (List.range 6).foldlM
        (lastBoxStep bandNr transposed firstBox rowsPerm colsPerm secondBoxChoice secondBoxFirstCol
          secondBoxSecondCol band) (st, mapping)
      .ok st

/-- `&sudoku[27 * band..][..27]`. -/
def getBand (g : Grid) (band : Nat) : Res (Vector UInt8 27) :=
  if h : 27 * band + 27 ≤ 81 then .ok (Vector.ofFn (fun i : Fin 27 => g[27 * band + i.val]'(by omega)))
  else .panic

/-- Writing to the slice `&mut sudoku[27 * band..][..27]`. -/
def putBand (g : Grid) (band : Nat) (b : Vector UInt8 27) : Grid :=
  Vector.ofFn (fun i : Fin 81 => if h : 27 * band ≤ i.val ∧ i.val < 27 * band + 27 then
    b[i.val - 27 * band]'(by omega) else g[i])

/-- `find_minlex_band_transformation`, canonicalization.rs lines 178-268. -/
def findMinlexBand (g : Grid) (bandNr : Nat) (transposed : Bool) (st : BandState) : Res BandState := do
  let band ← getBand g bandNr
  (List.range 3).foldlM (fun st firstBox => do
    let band ← swapStackInBand band 0 firstBox
    (List.range 6).foldlM (fun st rp => do
      let rowsPerm ← Permutation3.new rp
      let band ← permute band rowsPerm 0 swapRowsInBand
      (List.range 6).foldlM (fun st cp => do
        let colsPerm ← Permutation3.new cp
        let band ← permute band colsPerm 0 swapColsInBand
        secondBoxStep bandNr transposed firstBox rowsPerm colsPerm band st) st) st) st

/-- A row of a band: `&band[9 * row..][..9]`. -/
def bandRow (band : Vector UInt8 27) (row : Nat) : List UInt8 := (band.toList.drop (9 * row)).take 9

/-- `(..).min_by_key(|row| key(row))` on a nonempty range: the first minimum. -/
def minByKey (key : Nat → List UInt8) : List Nat → Nat → Nat
  | [], best => best
  | x :: xs, best => if arrayCmp (key best) (key x) = .gt then minByKey key xs x else minByKey key xs best

/-- `sort_rows_in_band_and_find_permutation`, canonicalization.rs lines 327-337. -/
def sortRows (g : Grid) (bandNr : Nat) : Res (Grid × Permutation3) := do
  let band ← getBand g bandNr
  let firstChoice := minByKey (bandRow band) [1, 2] 0
  let band ← swapRowsInBand band 0 firstChoice
  let secondChoice := minByKey (fun row => bandRow band (row + 1)) [1] 0
  let band ← swapRowsInBand band 1 (1 + secondChoice)
  let p ← Permutation3.fromChoices firstChoice secondChoice
  .ok (putBand g bandNr band, p)

/-- `find_minimal_transformation_for_band`, canonicalization.rs lines 272-324. -/
def findMinimalForBand (sudoku : Grid) (bt : MinBandTransformation) : Res (Grid × Transformation) := do
  let g ← (if bt.transposed then transpose sudoku else .ok sudoku)
  let g ← swapBands g 0 bt.band
  let g ← permute g bt.rowPermutation 0 swapRows
  let g ← permute g bt.stackPermutation 0 swapStacks
  let g ← bt.colPermutations.apply g swapCols
  let g ← applyDigitMapping bt.digitRemapping g
  let (g, rowPerm2) ← sortRows g 1
  let (g, rowPerm3) ← sortRows g 2
  let needsBandSwitch := decide (arrayCmp ((g.toList.drop 27).take 27) (g.toList.drop 54) = .gt)
  let bandChoice2 := if needsBandSwitch then 1 else 0
  let (rowPerm2, rowPerm3) := if needsBandSwitch then (rowPerm3, rowPerm2) else (rowPerm2, rowPerm3)
  let g ← swapBands g 1 (1 + bandChoice2)
  let bp ← Permutation3.fromChoices bt.band bandChoice2
  .ok (g, { transpose := bt.transposed, bandPermutation := bp, stackPermutation := bt.stackPermutation,
            rowPermutations := ⟨bt.rowPermutation, rowPerm2, rowPerm3⟩,
            colPermutations := bt.colPermutations, digitRemapping := bt.digitRemapping })

/-- `Iterator::min_by` with the counting comparison of `find_canonical_sudoku_and_transformation`,
canonicalization.rs lines 156-171: the closure is called with the minimum so far and the next item; the next
item replaces the minimum only if the minimum is greater. -/
def minByCount : List (Grid × Transformation) → (Grid × Transformation) → Nat →
    (Grid × Transformation) × Nat
  | [], best, count => (best, count)
  | x :: xs, best, count =>
    match Sudoku.cmp best.1 x.1 with
    | .gt => minByCount xs x 1
    | .lt => minByCount xs best count
    | .eq => minByCount xs best (count + 1)

/-- `find_canonical_sudoku_and_transformation`, canonicalization.rs lines 133-172.  The mapped iterator is
evaluated before `min_by` (it has no effects). -/
def findCanonical (sudoku : Grid) : Res (Grid × Transformation × Nat) := do
  let st ← [false, true].foldlM (fun st transp => do
    let g ← (if transp then transpose sudoku else .ok sudoku)
    (List.range 3).foldlM (fun st band => findMinlexBand g band transp st) st)
    (BandState.mk (Vector.replicate 16 9) [])
  let results ← st.transformations.mapM (findMinimalForBand sudoku)
  match results with
  | [] => .panic
  | x :: xs =>
    let r := minByCount xs x 1
    .ok (r.1.1, r.1.2, r.2)

/-- `canonicalized`, src/board/sudoku.rs lines 711-725. -/
def canonicalized (fuel : Nat) (g : Grid) : Res (Option (Grid × Nat)) := do
  let solved ← (if isSolved g then Res.ok (some g) else solution fuel g)
  match solved with
  | none => .ok none
  | some solved => do
    let (_, transformation, n) ← findCanonical solved
    let sudoku ← transformation.apply g
    .ok (some (sudoku, n))

end Verif.Canon
