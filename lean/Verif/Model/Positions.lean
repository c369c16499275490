import Verif.Spec.Board
import Verif.Model.Bitset
import Verif.Model.PosTables

/-!
# Model of `/repo/src/board/positions.rs` and `/repo/src/board/digit.rs`

A position type whose numbers range over `0..k` is `Fin k`; the range check in `new`
(lines 181-184, a `debug_assert!`) is discharged where a value is built.  `u8` arithmetic is done in
`Nat`; all intermediate values are below 256.
-/
namespace Verif.Pos

open Verif

/-- A set of cells, `Set<Cell>` (`u128`). -/
abbrev Cells := BitVec 128

/-- `Cell -> Row`: src/board/positions.rs lines 12-15 and 699. -/
def cellRow (c : Fin 81) : Fin 9 := ⟨c.val / 9, by omega⟩
/-- `Cell -> Col`: lines 16-19 and 700. -/
def cellCol (c : Fin 81) : Fin 9 := ⟨c.val % 9, by omega⟩
/-- `Cell -> Band`: lines 25-27 and 702. -/
def cellBand (c : Fin 81) : Fin 3 := ⟨c.val / 27, by omega⟩
/-- `Cell -> Stack`: lines 29-31 and 703. -/
def cellStack (c : Fin 81) : Fin 3 := ⟨c.val % 9 / 3, by omega⟩
/-- `Cell -> Block`: line 701, `3 * band(c) + stack(c)`. -/
def cellBlock (c : Fin 81) : Fin 9 := ⟨3 * (c.val / 27) + c.val % 9 / 3, by omega⟩
/-- The free function `block`, lines 20-23, which reads the table `BLOCK`. -/
def blockByTable (c : Fin 81) : Option Nat := PosTables.block[c.val]?

/-- `Cell::from_coords`, lines 277-281. -/
def fromCoords (row col : Fin 9) : Fin 81 := ⟨row.val * 9 + col.val, by omega⟩

/-- `Row -> House`, line 687. -/
def rowHouse (r : Fin 9) : Fin 27 := ⟨r.val, by omega⟩
/-- `Col -> House`, line 688 (`COL_OFFSET` = 9). -/
def colHouse (c : Fin 9) : Fin 27 := ⟨c.val + 9, by omega⟩
/-- `Block -> House`, line 690 (`BLOCK_OFFSET` = 18). -/
def blockHouse (b : Fin 9) : Fin 27 := ⟨b.val + 18, by omega⟩
/-- `Row -> Line`, line 685. -/
def rowLine (r : Fin 9) : Fin 18 := ⟨r.val, by omega⟩
/-- `Col -> Line`, line 686. -/
def colLine (c : Fin 9) : Fin 18 := ⟨c.val + 9, by omega⟩
/-- `Line -> House`, line 689. -/
def lineHouse (l : Fin 18) : Fin 27 := ⟨l.val, by omega⟩

/-- `HouseType`, lines 303-309. -/
inductive HouseType where
  | row (r : Fin 9)
  | col (c : Fin 9)
  | block (b : Fin 9)
deriving DecidableEq

/-- `House::categorize`, lines 316-325. -/
def categorize (h : Fin 27) : HouseType :=
  if h1 : h.val ≤ 8 then .row ⟨h.val, by omega⟩
  else if h2 : h.val ≤ 17 then .col ⟨h.val - 9, by omega⟩
  else .block ⟨h.val - 18, by omega⟩

/-- `LineType`, lines 283-288, and `Line::categorize`, lines 290-299: `inl` row, `inr` column. -/
def categorizeLine (l : Fin 18) : Fin 9 ⊕ Fin 9 :=
  if h1 : l.val < 9 then .inl ⟨l.val, h1⟩ else .inr ⟨l.val - 9, by omega⟩

/-- `Cell::cells`, line 402. -/
def cellCells (c : Fin 81) : Cells := 1#128 <<< c.val
/-- `Row::cells`, line 403. -/
def rowCells (r : Fin 9) : Cells := 0o777#128 <<< (9 * r.val)
/-- `Col::cells`, line 404. -/
def colCells (c : Fin 9) : Cells := 0o001001001001001001001001001#128 <<< c.val
/-- `Block::cells`, lines 405-409. -/
def blockCells (b : Fin 9) : Cells := 0o007007007#128 <<< (b.val / 3 * 27 + b.val % 3 * 3)
/-- `Line::cells`, lines 410-416. -/
def lineCells (l : Fin 18) : Cells :=
  match categorizeLine l with
  | .inl r => rowCells r
  | .inr c => colCells c
/-- `House::cells`, lines 417-424. -/
def houseCells (h : Fin 27) : Cells :=
  match categorize h with
  | .row r => rowCells r
  | .col c => colCells c
  | .block b => blockCells b
/-- `MiniRow::cells`, line 425. -/
def miniRowCells (m : Fin 27) : Cells := 0o7#128 <<< (3 * m.val)
/-- `MiniCol::cells`, lines 427-431. -/
def miniColCells (m : Fin 27) : Cells := 0o001001001#128 <<< (m.val % 3 * 27 + m.val / 3)
/-- `MiniLine::cells`, lines 432-438 with `categorize`, lines 351-360. -/
def miniLineCells (m : Fin 54) : Cells :=
  if h : m.val < 27 then miniRowCells ⟨m.val, h⟩ else miniColCells ⟨m.val - 27, by omega⟩
/-- `Band::cells`, line 439. -/
def bandCells (b : Fin 3) : Cells := 0o777777777#128 <<< (27 * b.val)
/-- `Stack::cells`, line 440. -/
def stackCells (s : Fin 3) : Cells := 0o007007007007007007007007007#128 <<< (3 * s.val)
/-- `Chute::cells`, lines 441-447 with `categorize`, lines 335-343. -/
def chuteCells (c : Fin 6) : Cells :=
  if h : c.val < 3 then bandCells ⟨c.val, h⟩ else stackCells ⟨c.val - 3, by omega⟩

/-- `Cell -> Position<Row>` and on to `Position<House>`: `row_pos`, lines 511-513 and 704. -/
def rowPos (c : Fin 81) : Fin 9 := cellCol c
/-- `col_pos`, lines 515-517 and 705. -/
def colPos (c : Fin 81) : Fin 9 := cellRow c
/-- `block_pos`, lines 519-521 and 712: `row(c) % 3 * 3 + col(c) % 3`. -/
def blockPos (c : Fin 81) : Fin 9 := ⟨c.val / 9 % 3 * 3 + c.val % 9 % 3, by omega⟩

/-- `Cell::houses`, lines 528-530. -/
def houses (c : Fin 81) : List (Fin 27) :=
  [rowHouse (cellRow c), colHouse (cellCol c), blockHouse (cellBlock c)]

/-- `Cell::neighbors`, lines 535-540: reads the table `HOUSE_NEIGHBORS_OF_CELL`; `Cell::new` checks
the range (a `none` entry would be a panic, shown not to occur). -/
def neighbors (c : Fin 81) : List (Fin 81) :=
  ((PosTables.houseNeighborsOfCell[c.val]?).getD []).filterMap
    (fun x => if h : x < 81 then some ⟨x, h⟩ else none)

/-- `Cell::neighbors_set`, lines 545-548. -/
def neighborsSet (c : Fin 81) : Cells :=
  (rowCells (cellRow c) ||| colCells (cellCol c) ||| blockCells (cellBlock c)) ^^^ cellCells c

/-- `Row::cell_at`, lines 611-615. -/
def rowCellAt (r pos : Fin 9) : Fin 81 := fromCoords r pos
/-- `Col::cell_at`, lines 617-621. -/
def colCellAt (c pos : Fin 9) : Fin 81 := fromCoords pos c
/-- `Block::cell_at`, lines 623-634. -/
def blockCellAt (b pos : Fin 9) : Fin 81 :=
  fromCoords ⟨b.val / 3 * 3 + pos.val / 3, by omega⟩ ⟨b.val % 3 * 3 + pos.val % 3, by omega⟩
/-- `Line::cell_at`, lines 636-643. -/
def lineCellAt (l : Fin 18) (pos : Fin 9) : Fin 81 :=
  match categorizeLine l with
  | .inl r => rowCellAt r pos
  | .inr c => colCellAt c pos
/-- `House::cell_at`, lines 645-653. -/
def houseCellAt (h : Fin 27) (pos : Fin 9) : Fin 81 :=
  match categorize h with
  | .row r => rowCellAt r pos
  | .col c => colCellAt c pos
  | .block b => blockCellAt b pos

/-- `CellAt::cells_at`, lines 595-608, for a house: positions as a 9-bit set. -/
def houseCellsAt (h : Fin 27) (positions : BitVec 16) : Res Cells := do
  let l ← Bitset.iter 9 positions
  l.foldlM (fun acc p => if hp : p < 9 then .ok (acc ||| cellCells (houseCellAt h ⟨p, hp⟩)) else .panic)
    (0#128)

/-- `Chute::minilines`, lines 555-561. -/
def minilines (c : Fin 6) : List (Fin 54) :=
  (List.finRange 9).map (fun i => ⟨c.val * 9 + i.val, by omega⟩)

/-- `MiniLine::neighbors`, lines 572-579: indices of the line and block neighbours. -/
def minilineNeighbors (m : Fin 54) : Option ((Nat × Nat) × (Nat × Nat)) :=
  PosTables.minilineNeighbors[m.val]?

/-- `MiniLine::chute`, lines 582-584. -/
def minilineChute (m : Fin 54) : Fin 6 := ⟨m.val / 9, by omega⟩

/-- `Digit::new_checked`, src/board/digit.rs lines 18-23. -/
def digitNewChecked (d : UInt8) : Option UInt8 := if d > 9 then none else if d = 0 then none else some d

/-- `Digit::as_index`, src/board/digit.rs lines 44-46 (`get() as usize - 1`). -/
def digitIndex (d : UInt8) : Nat := d.toNat - 1

end Verif.Pos
