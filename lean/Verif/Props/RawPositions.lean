import Verif.Model.RawPositions
import Verif.Props.Positions
import Verif.Props.Numbers

/-!
# C85: the arithmetic of positions does not overflow

The functions of `Verif.Model.RawPositions` compute with `u8` and `u128`, with or without overflow checks (`debug`).  For
numbers in range they give what `Verif.Model.Positions` gives, which C37 describes by the geometry of the board.
-/
namespace Verif.Props

open Verif Numbers

/-- The `u8` of a position. -/
def u8 {n : Nat} (x : Fin n) : UInt8 := UInt8.ofNat x.val

/-- **C85** (conversions).  For a position in range and any build the conversions return the position of C37. -/
theorem C85_conversions (debug : Bool) :
    (∀ c : Fin 81, Raw.cellRow debug (u8 c) = .ok (u8 (Pos.cellRow c)) ∧
      Raw.cellCol debug (u8 c) = .ok (u8 (Pos.cellCol c)) ∧
      Raw.cellBlock debug (u8 c) = .ok (u8 (Pos.cellBlock c)) ∧
      Raw.cellBand debug (u8 c) = .ok (u8 (Pos.cellBand c)) ∧
      Raw.cellStack debug (u8 c) = .ok (u8 (Pos.cellStack c)) ∧
      Raw.block (u8 c) = .ok (Pos.cellBlock c).val ∧
      Raw.cellRowPos (u8 c) = u8 (Pos.rowPos c) ∧ Raw.cellColPos (u8 c) = u8 (Pos.colPos c) ∧
      Raw.cellBlockPos debug (u8 c) = .ok (u8 (Pos.blockPos c)) ∧
      Raw.cellBandPos debug (u8 c) = .ok (UInt8.ofNat (c.val % 27)) ∧
      Raw.houses debug (u8 c) = .ok ((Pos.houses c).map u8)) ∧
    (∀ x : Fin 9, Raw.rowLine debug (u8 x) = .ok (u8 (Pos.rowLine x)) ∧
      Raw.colLine debug (u8 x) = .ok (u8 (Pos.colLine x)) ∧
      Raw.rowHouse debug (u8 x) = .ok (u8 (Pos.rowHouse x)) ∧
      Raw.colHouse debug (u8 x) = .ok (u8 (Pos.colHouse x)) ∧
      Raw.blockHouse debug (u8 x) = .ok (u8 (Pos.blockHouse x))) ∧
    (∀ l : Fin 18, Raw.lineHouse debug (u8 l) = .ok (u8 (Pos.lineHouse l))) ∧
    (∀ x : Fin 3, Raw.bandChute debug (u8 x) = .ok (u8 x) ∧ Raw.stackChute debug (u8 x) = .ok (u8 x + 3)) ∧
    (∀ m : Fin 54, Raw.minilineChute debug (u8 m) = .ok (u8 (Pos.minilineChute m))) ∧
    (∀ c : Fin 6, Raw.minilines debug (u8 c) = .ok ((Pos.minilines c).map u8)) := by
  revert debug; decide +kernel

/-- **C85** (sets of cells).  The sets of cells are those of C37, and the shifts are in range. -/
theorem C85_cells (debug : Bool) :
    (∀ c : Fin 81, Raw.cellCells debug (u8 c) = .ok (Pos.cellCells c)) ∧
    (∀ x : Fin 9, Raw.rowCells debug (u8 x) = .ok (Pos.rowCells x) ∧
      Raw.colCells debug (u8 x) = .ok (Pos.colCells x) ∧ Raw.blockCells debug (u8 x) = .ok (Pos.blockCells x)) ∧
    (∀ x : Fin 18, Raw.lineCells debug (u8 x) = .ok (Pos.lineCells x)) ∧
    (∀ x : Fin 27, Raw.houseCells debug (u8 x) = .ok (Pos.houseCells x) ∧
      Raw.miniRowCells debug (u8 x) = .ok (Pos.miniRowCells x) ∧
      Raw.miniColCells debug (u8 x) = .ok (Pos.miniColCells x)) ∧
    (∀ x : Fin 54, Raw.miniLineCells debug (u8 x) = .ok (Pos.miniLineCells x)) ∧
    (∀ x : Fin 3, Raw.bandCells debug (u8 x) = .ok (Pos.bandCells x) ∧
      Raw.stackCells debug (u8 x) = .ok (Pos.stackCells x)) ∧
    (∀ x : Fin 6, Raw.chuteCells debug (u8 x) = .ok (Pos.chuteCells x)) := by
  revert debug; decide +kernel

/-- **C85** (cells at a position). -/
theorem C85_cell_at (debug : Bool) :
    (∀ h p : Fin 9, Raw.fromCoords debug (u8 h) (u8 p) = .ok (u8 (Pos.fromCoords h p)) ∧
      Raw.rowCellAt debug (u8 h) (u8 p) = .ok (u8 (Pos.rowCellAt h p)) ∧
      Raw.colCellAt debug (u8 h) (u8 p) = .ok (u8 (Pos.colCellAt h p)) ∧
      Raw.blockCellAt debug (u8 h) (u8 p) = .ok (u8 (Pos.blockCellAt h p))) ∧
    (∀ (l : Fin 18) (p : Fin 9), Raw.lineCellAt debug (u8 l) (u8 p) = .ok (u8 (Pos.lineCellAt l p))) ∧
    (∀ (h : Fin 27) (p : Fin 9), Raw.houseCellAt debug (u8 h) (u8 p) = .ok (u8 (Pos.houseCellAt h p))) := by
  revert debug; decide +kernel

/-- **C85** (neighbours).  The indices are in the tables and the entries of the tables are in range. -/
theorem C85_neighbors (debug : Bool) :
    (∀ c : Fin 81, Raw.neighbors debug (u8 c) = .ok ((Pos.neighbors c).map u8) ∧
      Raw.neighborsSet debug (u8 c) = .ok (Pos.neighborsSet c)) ∧
    (∀ m : Fin 54, ∃ p, Raw.minilineNeighbors (u8 m) = .ok p ∧ Pos.minilineNeighbors m = some p) := by
  refine ⟨by revert debug; decide +kernel, fun m => ?_⟩
  obtain ⟨p, h, -⟩ := C37_tables_in_range.2 m
  have e : (u8 m).toNat = m.val := by
    have := m.isLt
    simp only [u8, UInt8.toNat_ofNat']
    omega
  refine ⟨p, ?_, h⟩
  unfold Raw.minilineNeighbors
  rw [e]
  exact congrArg unwrap h

/-- **C85** (numbers out of range).  With overflow checks `Row::cell_at` and `Col::cell_at` panic exactly if the number
computed from line and position is not that of a cell. -/
theorem C85_coords_checked (row col : UInt8) : Raw.fromCoords true row col =
    if row.toNat * 9 + col.toNat < 81 then .ok (UInt8.ofNat (row.toNat * 9 + col.toNat)) else .panic := by
  have h9 : (9 : UInt8).toNat = 9 := rfl
  unfold Raw.fromCoords Raw.mul Raw.add posNew Res.assert
  simp only [Bool.not_true, Bool.false_or, h9]
  by_cases h1 : row.toNat * 9 < 256
  · have e1 : (row * 9).toNat = row.toNat * 9 := by
      rw [UInt8.toNat_mul, h9]; exact Nat.mod_eq_of_lt h1
    rw [if_pos (decide_eq_true h1)]
    simp only [Res.ok_bind, e1]
    by_cases h2 : row.toNat * 9 + col.toNat < 256
    · have e2 : (row * 9 + col).toNat = row.toNat * 9 + col.toNat := by
        rw [UInt8.toNat_add, e1]; exact Nat.mod_eq_of_lt h2
      rw [if_pos (decide_eq_true h2)]
      simp only [Res.ok_bind]
      have e3 : (row * 9 + col < Kind.cell.limit) ↔ row.toNat * 9 + col.toNat < 81 := by
        rw [UInt8.lt_iff_toNat_lt, e2]; rfl
      by_cases h3 : row.toNat * 9 + col.toNat < 81
      · rw [if_pos (decide_eq_true (e3.mpr h3)), if_pos h3]
        simp only [Res.ok_bind]
        congr 1
        apply UInt8.toNat_inj.mp
        rw [e2, UInt8.toNat_ofNat']
        omega
      · rw [if_neg (by simpa [e3] using h3), if_neg h3]
        rfl
    · rw [if_neg (by simpa using h2), if_neg (by omega)]
      rfl
  · rw [if_neg (by simpa using h1), if_neg (by omega)]
    rfl

private theorem coords_in_range {r c n : UInt8} (h : Raw.fromCoords true r c = .ok n) : n.toNat < 81 := by
  rw [C85_coords_checked] at h
  split at h
  · cases h
    rw [UInt8.toNat_ofNat']
    omega
  · cases h

private theorem bind_ok_inv {α β : Type} {x : Res α} {f : α → Res β} {b : β} (h : (x >>= f) = .ok b) :
    ∃ a, x = .ok a ∧ f a = .ok b := by
  cases x with
  | ok a => exact ⟨a, rfl, h⟩
  | err => cases h
  | panic => cases h
  | timeout => cases h

/-- **C85** (numbers out of range).  With overflow checks and debug assertions `cell_at` never returns a number that is not a
cell, whatever the numbers. -/
theorem C85_checked_in_range (x pos n : UInt8)
    (h : Raw.rowCellAt true x pos = .ok n ∨ Raw.colCellAt true x pos = .ok n ∨ Raw.blockCellAt true x pos = .ok n ∨
      Raw.lineCellAt true x pos = .ok n ∨ Raw.houseCellAt true x pos = .ok n) : n.toNat < 81 := by
  have hb : ∀ {x : UInt8}, Raw.blockCellAt true x pos = .ok n → n.toNat < 81 := by
    intro x h
    unfold Raw.blockCellAt at h
    obtain ⟨_, -, h⟩ := bind_ok_inv h
    obtain ⟨_, -, h⟩ := bind_ok_inv h
    obtain ⟨_, -, h⟩ := bind_ok_inv h
    obtain ⟨_, -, h⟩ := bind_ok_inv h
    exact coords_in_range h
  rcases h with h | h | h | h | h
  · exact coords_in_range h
  · exact coords_in_range h
  · exact hb h
  · obtain ⟨l, -, h⟩ := bind_ok_inv h
    cases l <;> exact coords_in_range h
  · obtain ⟨l, -, h⟩ := bind_ok_inv h
    cases l with
    | row => exact coords_in_range h
    | col => exact coords_in_range h
    | block => exact hb h

/-- **C85** is false for positions out of range: `Position::new` checks nothing, and `cell_at` then returns a cell that
is not in the row. -/
theorem C85_position_false (debug : Bool) : ∃ (r : Fin 9) (pos : UInt8) (c : Fin 81),
    Raw.rowCellAt debug (u8 r) pos = .ok (u8 c) ∧ ¬ pos < 9 ∧ rowOf c ≠ r :=
  ⟨0, 9, 9, by revert debug; decide +kernel⟩

/-- **C85** is false without debug assertions: `Row::new(9).cells()` holds numbers that are no cells, and
`Row::new(29).cells()` the cells 5 to 13 because of the overflow. -/
theorem C85_release_false : (∃ m, Raw.rowCells false 9 = .ok m ∧ 81 ∈ elems m) ∧
    ∃ m, Raw.rowCells false 29 = .ok m ∧ 5 ∈ elems m := by
  refine ⟨⟨_, rfl, ?_⟩, ⟨_, rfl, ?_⟩⟩ <;> (rw [Bitset.mem_elems]; decide +kernel)

/-- C85: the middle of the board. -/
example : Raw.cellBlock true 40 = .ok 4 ∧ Raw.houses true 40 = .ok [4, 13, 22] ∧
    Raw.blockCellAt true 4 4 = .ok 40 ∧ Raw.fromCoords true 8 9 = .panic ∧ Raw.fromCoords true 200 0 = .panic := by
  decide +kernel

end Verif.Props
