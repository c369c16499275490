import Verif.Model.Numbers

/-!
# Model of the arithmetic in `/repo/src/board/positions.rs` on machine integers

`Verif.Model.Positions` has the positions as numbers in range and computes with natural numbers.  Here a position is the
`u8` in it, as in `Verif.Model.Numbers`.  `debug` says whether the library was compiled with debug assertions and overflow
checks: then `+`, `-`, `*` and `<<` panic on overflow, otherwise they wrap.
-/
namespace Verif.Raw

open Verif Numbers

/-- `a + b` on `u8`. -/
def add (debug : Bool) (a b : UInt8) : Res UInt8 := do
  Res.assert (!debug || decide (a.toNat + b.toNat < 256))
  .ok (a + b)

/-- `a - b` on `u8`. -/
def sub (debug : Bool) (a b : UInt8) : Res UInt8 := do
  Res.assert (!debug || decide (b.toNat ≤ a.toNat))
  .ok (a - b)

/-- `a * b` on `u8`. -/
def mul (debug : Bool) (a b : UInt8) : Res UInt8 := do
  Res.assert (!debug || decide (a.toNat * b.toNat < 256))
  .ok (a * b)

/-- `m << n` on `u128`; without overflow checks only the last seven bits of `n` count. -/
def shl (debug : Bool) (m : BitVec 128) (n : UInt8) : Res (BitVec 128) := do
  Res.assert (!debug || decide (n.toNat < 128))
  .ok (m <<< (n.toNat % 128))

/-- `debug_assert!(cond)`. -/
def debugAssert (debug cond : Bool) : Res Unit := Res.assert (!debug || cond)

/-- `row`, lines 12-15. -/
def row (cell : UInt8) : UInt8 := cell / 9
/-- `col`, lines 16-19. -/
def col (cell : UInt8) : UInt8 := cell % 9
/-- `block`, lines 20-23: an index out of the table panics. -/
def block (cell : UInt8) : Res Nat := unwrap PosTables.block[cell.toNat]?
/-- `band`, lines 25-27. -/
def band (cell : UInt8) : UInt8 := cell / 27
/-- `stack`, lines 29-31. -/
def stack (cell : UInt8) : UInt8 := col cell / 3

/-- `Cell::from_coords`, lines 277-281. -/
def fromCoords (debug : Bool) (row col : UInt8) : Res UInt8 := do
  posNew debug .cell (← add debug (← mul debug row 9) col)

/-! ## Lines, houses, chutes and minilines -/

/-- `Line::categorize`, lines 290-299: `inl` row, `inr` column. -/
def categorizeLine (debug : Bool) (line : UInt8) : Res (UInt8 ⊕ UInt8) := do
  debugAssert debug (decide (line < 18))
  if line < 9 then .ok (.inl (← posNew debug .row line))
  else .ok (.inr (← posNew debug .col (← sub debug line 9)))

/-- The value of `House::categorize`: `HouseType`, lines 303-309. -/
inductive House where
  | row (r : UInt8)
  | col (c : UInt8)
  | block (b : UInt8)
deriving DecidableEq

/-- `House::categorize`, lines 316-325. -/
def categorizeHouse (debug : Bool) (house : UInt8) : Res House := do
  debugAssert debug (decide (house < 27))
  if house ≤ 8 then .ok (.row (← posNew debug .row house))
  else if house ≤ 17 then .ok (.col (← posNew debug .col (← sub debug house 9)))
  else .ok (.block (← posNew debug .block (← sub debug house 18)))

/-- `Chute::categorize`, lines 335-343: `inl` band, `inr` stack. -/
def categorizeChute (debug : Bool) (chute : UInt8) : Res (UInt8 ⊕ UInt8) := do
  debugAssert debug (decide (chute < 6))
  if chute < 3 then .ok (.inl (← posNew debug .band chute))
  else .ok (.inr (← posNew debug .stack (← sub debug chute 3)))

/-- `MiniLine::categorize`, lines 351-360: `inl` minirow, `inr` minicolumn. -/
def categorizeMiniLine (debug : Bool) (m : UInt8) : Res (UInt8 ⊕ UInt8) := do
  debugAssert debug (decide (m < 54))
  if m < 27 then .ok (.inl (← posNew debug .miniRow m))
  else .ok (.inr (← posNew debug .miniCol (← sub debug m 27)))

/-! ## Sets of cells, lines 401-448 -/

/-- `Cell::cells`, line 402. -/
def cellCells (debug : Bool) (cell : UInt8) : Res (BitVec 128) := shl debug 1#128 cell
/-- `Row::cells`, line 403. -/
def rowCells (debug : Bool) (row : UInt8) : Res (BitVec 128) := do shl debug 0o777#128 (← mul debug 9 row)
/-- `Col::cells`, line 404. -/
def colCells (debug : Bool) (col : UInt8) : Res (BitVec 128) := shl debug 0o001001001001001001001001001#128 col
/-- `Block::cells`, lines 405-409. -/
def blockCells (debug : Bool) (block : UInt8) : Res (BitVec 128) := do
  let band := block / 3
  let stack := block % 3
  shl debug 0o007007007#128 (← add debug (← mul debug band 27) (← mul debug stack 3))
/-- `Line::cells`, lines 410-416. -/
def lineCells (debug : Bool) (line : UInt8) : Res (BitVec 128) := do
  match ← categorizeLine debug line with
  | .inl row => rowCells debug row
  | .inr col => colCells debug col
/-- `House::cells`, lines 417-424. -/
def houseCells (debug : Bool) (house : UInt8) : Res (BitVec 128) := do
  match ← categorizeHouse debug house with
  | .row row => rowCells debug row
  | .col col => colCells debug col
  | .block block => blockCells debug block
/-- `MiniRow::cells`, line 425. -/
def miniRowCells (debug : Bool) (mr : UInt8) : Res (BitVec 128) := do shl debug 0o7#128 (← mul debug 3 mr)
/-- `MiniCol::cells`, lines 427-431. -/
def miniColCells (debug : Bool) (mc : UInt8) : Res (BitVec 128) := do
  let band := mc % 3
  let col := mc / 3
  shl debug 0o001001001#128 (← add debug (← mul debug band 27) col)
/-- `MiniLine::cells`, lines 432-438. -/
def miniLineCells (debug : Bool) (m : UInt8) : Res (BitVec 128) := do
  match ← categorizeMiniLine debug m with
  | .inl mr => miniRowCells debug mr
  | .inr mc => miniColCells debug mc
/-- `Band::cells`, line 439. -/
def bandCells (debug : Bool) (band : UInt8) : Res (BitVec 128) := do
  shl debug 0o777777777#128 (← mul debug 27 band)
/-- `Stack::cells`, line 440. -/
def stackCells (debug : Bool) (stack : UInt8) : Res (BitVec 128) := do
  shl debug 0o007007007007007007007007007#128 (← mul debug 3 stack)
/-- `Chute::cells`, lines 441-447. -/
def chuteCells (debug : Bool) (chute : UInt8) : Res (BitVec 128) := do
  match ← categorizeChute debug chute with
  | .inl band => bandCells debug band
  | .inr stack => stackCells debug stack

/-! ## Cells at a position, lines 590-653 -/

/-- `Row::cell_at`, lines 611-615.  (`Position::new`, lines 366-371, checks nothing.) -/
def rowCellAt (debug : Bool) (row pos : UInt8) : Res UInt8 := fromCoords debug row pos
/-- `Col::cell_at`, lines 617-621. -/
def colCellAt (debug : Bool) (col pos : UInt8) : Res UInt8 := fromCoords debug pos col
/-- `Block::cell_at`, lines 623-634. -/
def blockCellAt (debug : Bool) (block pos : UInt8) : Res UInt8 := do
  let band := block / 3
  let stack := block % 3
  let rowInBand := pos / 3
  let colInStack := pos % 3
  let row ← add debug (← mul debug band 3) rowInBand
  let col ← add debug (← mul debug stack 3) colInStack
  fromCoords debug row col
/-- `Line::cell_at`, lines 636-643. -/
def lineCellAt (debug : Bool) (line pos : UInt8) : Res UInt8 := do
  match ← categorizeLine debug line with
  | .inl row => rowCellAt debug row pos
  | .inr col => colCellAt debug col pos
/-- `House::cell_at`, lines 645-653. -/
def houseCellAt (debug : Bool) (house pos : UInt8) : Res UInt8 := do
  match ← categorizeHouse debug house with
  | .row row => rowCellAt debug row pos
  | .col col => colCellAt debug col pos
  | .block block => blockCellAt debug block pos

/-! ## Conversions, lines 683-716 -/

/-- `Row -> Line`, line 685. -/
def rowLine (debug : Bool) (r : UInt8) : Res UInt8 := posNew debug .line r
/-- `Col -> Line`, line 686. -/
def colLine (debug : Bool) (c : UInt8) : Res UInt8 := do posNew debug .line (← add debug c 9)
/-- `Row -> House`, line 687. -/
def rowHouse (debug : Bool) (r : UInt8) : Res UInt8 := posNew debug .house r
/-- `Col -> House`, line 688. -/
def colHouse (debug : Bool) (c : UInt8) : Res UInt8 := do posNew debug .house (← add debug c 9)
/-- `Line -> House`, line 689. -/
def lineHouse (debug : Bool) (l : UInt8) : Res UInt8 := posNew debug .house l
/-- `Block -> House`, line 690. -/
def blockHouse (debug : Bool) (b : UInt8) : Res UInt8 := do posNew debug .house (← add debug b 18)
/-- `Band -> Chute`, line 691. -/
def bandChute (debug : Bool) (b : UInt8) : Res UInt8 := posNew debug .chute b
/-- `Stack -> Chute`, line 692. -/
def stackChute (debug : Bool) (s : UInt8) : Res UInt8 := do posNew debug .chute (← add debug s 3)

/-- `Cell -> Row`, line 699. -/
def cellRow (debug : Bool) (c : UInt8) : Res UInt8 := posNew debug .row (row c)
/-- `Cell -> Col`, line 700. -/
def cellCol (debug : Bool) (c : UInt8) : Res UInt8 := posNew debug .col (col c)
/-- `Cell -> Block`, line 701. -/
def cellBlock (debug : Bool) (c : UInt8) : Res UInt8 := do
  posNew debug .block (← add debug (← mul debug 3 (band c)) (stack c))
/-- `Cell -> Band`, line 702. -/
def cellBand (debug : Bool) (c : UInt8) : Res UInt8 := posNew debug .band (band c)
/-- `Cell -> Stack`, line 703. -/
def cellStack (debug : Bool) (c : UInt8) : Res UInt8 := posNew debug .stack (stack c)
/-- `Cell -> Position<Row>`, line 704. -/
def cellRowPos (c : UInt8) : UInt8 := col c
/-- `Cell -> Position<Col>`, line 705. -/
def cellColPos (c : UInt8) : UInt8 := row c
/-- `Cell -> Position<Block>`, line 712. -/
def cellBlockPos (debug : Bool) (c : UInt8) : Res UInt8 := do add debug (← mul debug (row c % 3) 3) (col c % 3)
/-- `Cell -> Position<Band>`, line 713. -/
def cellBandPos (debug : Bool) (c : UInt8) : Res UInt8 := do add debug (← mul debug (row c % 3) 9) (col c)

/-! ## Neighbours -/

/-- `Cell::houses`, lines 528-530. -/
def houses (debug : Bool) (c : UInt8) : Res (List UInt8) := do
  .ok [← rowHouse debug (← cellRow debug c), ← colHouse debug (← cellCol debug c),
    ← blockHouse debug (← cellBlock debug c)]

/-- `Cell::neighbors`, lines 535-540: an index out of the table panics. -/
def neighbors (debug : Bool) (c : UInt8) : Res (List UInt8) := do
  let l ← unwrap PosTables.houseNeighborsOfCell[c.toNat]?
  l.mapM (fun x => posNew debug .cell (UInt8.ofNat x))

/-- `Cell::neighbors_set`, lines 545-548. -/
def neighborsSet (debug : Bool) (c : UInt8) : Res (BitVec 128) := do
  .ok (((← rowCells debug (← cellRow debug c)) ||| (← colCells debug (← cellCol debug c)) |||
    (← blockCells debug (← cellBlock debug c))) ^^^ (← cellCells debug c))

/-- `Chute::minilines`, lines 555-561. -/
def minilines (debug : Bool) (chute : UInt8) : Res (List UInt8) :=
  (range 0 9).mapM (fun i => do add debug (← mul debug chute 9) i)

/-- `MiniLine::neighbors`, lines 572-579: an index out of the table panics. -/
def minilineNeighbors (m : UInt8) : Res ((Nat × Nat) × (Nat × Nat)) := unwrap PosTables.minilineNeighbors[m.toNat]?

/-- `MiniLine::chute`, lines 582-584. -/
def minilineChute (debug : Bool) (m : UInt8) : Res UInt8 := posNew debug .chute (m / 9)

end Verif.Raw
