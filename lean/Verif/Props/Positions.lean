import Verif.Model.Positions
import Verif.Proofs.Bitset
import Verif.Proofs.IsSolved

/-!
# C37: position arithmetic and neighbour tables

The geometry is that of `Verif.Spec.Board`: row `c / 9`, column `c % 9`, block
`3 * (row / 3) + col / 3`.
-/
namespace Verif.Props

open Verif Pos

/-- Row, column, block, band and stack of a cell. -/
theorem C37_cell (c : Fin 81) :
    (cellRow c).val = rowOf c ∧ (cellCol c).val = colOf c ∧ (cellBlock c).val = blockOf c ∧
    blockByTable c = some (blockOf c) ∧ (cellBand c).val = rowOf c / 3 ∧
    (cellStack c).val = colOf c / 3 ∧ fromCoords (cellRow c) (cellCol c) = c := by
  revert c; decide +kernel

/-- `from_coords` is the inverse of row and column. -/
theorem C37_from_coords (r k : Fin 9) :
    cellRow (fromCoords r k) = r ∧ cellCol (fromCoords r k) = k := by
  revert r k; decide +kernel

private theorem mem_cells {m : Cells} {i : Nat} {p : Nat → Prop} [DecidablePred p]
    (h : ∀ j : Fin 128, m.getLsbD j = decide (j.val < 81 ∧ p j.val)) :
    i ∈ elems m ↔ i < 81 ∧ p i := by
  rw [Bitset.mem_elems]
  by_cases hi : i < 128
  · have := h ⟨i, hi⟩
    simp only at this
    rw [this, decide_eq_true_eq]
  · rw [BitVec.getLsbD_of_ge _ _ (by omega)]
    constructor
    · intro h; cases h
    · intro h; omega

/-- The set of cells of each grouping. -/
theorem C37_cells :
    (∀ (r : Fin 9) (i : Nat), i ∈ elems (rowCells r) ↔ i < 81 ∧ rowOf i = r) ∧
    (∀ (k : Fin 9) (i : Nat), i ∈ elems (colCells k) ↔ i < 81 ∧ colOf i = k) ∧
    (∀ (b : Fin 9) (i : Nat), i ∈ elems (blockCells b) ↔ i < 81 ∧ blockOf i = b) ∧
    (∀ (b : Fin 3) (i : Nat), i ∈ elems (bandCells b) ↔ i < 81 ∧ rowOf i / 3 = b) ∧
    (∀ (s : Fin 3) (i : Nat), i ∈ elems (stackCells s) ↔ i < 81 ∧ colOf i / 3 = s) ∧
    (∀ (c : Fin 81) (i : Nat), i ∈ elems (cellCells c) ↔ i < 81 ∧ i = c) ∧
    (∀ (m : Fin 27) (i : Nat), i ∈ elems (miniRowCells m) ↔
      i < 81 ∧ (rowOf i = m / 3 ∧ colOf i / 3 = m % 3)) ∧
    (∀ (m : Fin 27) (i : Nat), i ∈ elems (miniColCells m) ↔
      i < 81 ∧ (colOf i = m / 3 ∧ rowOf i / 3 = m % 3)) :=
  ⟨fun r _ => mem_cells (p := fun i => rowOf i = r) (by revert r; decide +kernel),
   fun k _ => mem_cells (p := fun i => colOf i = k) (by revert k; decide +kernel),
   fun b _ => mem_cells (p := fun i => blockOf i = b) (by revert b; decide +kernel),
   fun b _ => mem_cells (p := fun i => rowOf i / 3 = b) (by revert b; decide +kernel),
   fun s _ => mem_cells (p := fun i => colOf i / 3 = s) (by revert s; decide +kernel),
   fun c _ => mem_cells (p := fun i => i = c) (by revert c; decide +kernel),
   fun m _ => mem_cells (p := fun i => rowOf i = m / 3 ∧ colOf i / 3 = m % 3)
     (by revert m; decide +kernel),
   fun m _ => mem_cells (p := fun i => colOf i = m / 3 ∧ rowOf i / 3 = m % 3)
     (by revert m; decide +kernel)⟩

/-- Lines are the rows then the columns; houses are the rows, the columns, then the blocks;
chutes the bands then the stacks; minilines the minirows, then the minicolumns. -/
theorem C37_unions :
    (∀ r : Fin 9, lineCells (rowLine r) = rowCells r ∧ lineCells (colLine r) = colCells r ∧
      houseCells (rowHouse r) = rowCells r ∧ houseCells (colHouse r) = colCells r ∧
      houseCells (blockHouse r) = blockCells r) ∧
    (∀ l : Fin 18, houseCells (lineHouse l) = lineCells l) ∧
    (∀ b : Fin 3, chuteCells ⟨b.val, by omega⟩ = bandCells b ∧
      chuteCells ⟨b.val + 3, by omega⟩ = stackCells b) ∧
    (∀ m : Fin 27, miniLineCells ⟨m.val, by omega⟩ = miniRowCells m ∧
      miniLineCells ⟨m.val + 27, by omega⟩ = miniColCells m) ∧
    (∀ h : Fin 27, match categorize h with
      | .row r => h = rowHouse r | .col c => h = colHouse c | .block b => h = blockHouse b) ∧
    (∀ l : Fin 18, match categorizeLine l with
      | .inl r => l = rowLine r | .inr c => l = colLine c) := by
  refine ⟨by decide +kernel, by decide +kernel, by decide +kernel, by decide +kernel, ?_, ?_⟩
  · intro h
    by_cases h1 : h.val ≤ 8
    · rw [show categorize h = .row ⟨h.val, by omega⟩ from dif_pos h1]; rfl
    · by_cases h2 : h.val ≤ 17
      · rw [show categorize h = .col ⟨h.val - 9, by omega⟩ from (dif_neg h1).trans (dif_pos h2)]
        simp only [colHouse, Fin.ext_iff]; omega
      · rw [show categorize h = .block ⟨h.val - 18, by omega⟩ from
          (dif_neg h1).trans (dif_neg h2)]
        simp only [blockHouse, Fin.ext_iff]; omega
  · intro l
    by_cases h1 : l.val < 9
    · rw [show categorizeLine l = .inl ⟨l.val, h1⟩ from dif_pos h1]; rfl
    · rw [show categorizeLine l = .inr ⟨l.val - 9, by omega⟩ from dif_neg h1]
      simp only [colLine, Fin.ext_iff]; omega

/-- The houses of a cell are exactly the three that contain it, in the order row, column, block. -/
theorem C37_houses (c : Fin 81) :
    (houses c).length = 3 ∧ (houses c).Nodup ∧
    (∀ h : Fin 27, h ∈ houses c ↔ c.val ∈ elems (houseCells h)) ∧
    houses c = [rowHouse (cellRow c), colHouse (cellCol c), blockHouse (cellBlock c)] := by
  refine ⟨rfl, by revert c; decide +kernel, ?_, rfl⟩
  have : ∀ c : Fin 81, ∀ h : Fin 27, decide (h ∈ houses c) = (houseCells h).getLsbD c := by
    decide +kernel
  intro h
  rw [Bitset.mem_elems, ← this, decide_eq_true_eq]

/-- `cell_at` and the position of a cell within its row, column and block are inverse to each
other: the nine positions enumerate the cells of the house. -/
theorem C37_cell_at :
    (∀ c : Fin 81, rowCellAt (cellRow c) (rowPos c) = c ∧ colCellAt (cellCol c) (colPos c) = c ∧
      blockCellAt (cellBlock c) (blockPos c) = c) ∧
    (∀ h p : Fin 9,
      (cellRow (rowCellAt h p) = h ∧ rowPos (rowCellAt h p) = p) ∧
      (cellCol (colCellAt h p) = h ∧ colPos (colCellAt h p) = p) ∧
      (cellBlock (blockCellAt h p) = h ∧ blockPos (blockCellAt h p) = p)) ∧
    (∀ h p : Fin 9, lineCellAt (rowLine h) p = rowCellAt h p ∧
      lineCellAt (colLine h) p = colCellAt h p ∧ houseCellAt (rowHouse h) p = rowCellAt h p ∧
      houseCellAt (colHouse h) p = colCellAt h p ∧
      houseCellAt (blockHouse h) p = blockCellAt h p) ∧
    (∀ h p : Fin 9, (PosTables.cellsByHouse[h.val]?.bind (·[p.val]?)) = some (rowCellAt h p).val ∧
      (PosTables.cellsByHouse[h.val + 9]?.bind (·[p.val]?)) = some (colCellAt h p).val ∧
      (PosTables.cellsByHouse[h.val + 18]?.bind (·[p.val]?)) = some (blockCellAt h p).val) := by
  refine ⟨?_, ?_, ?_, ?_⟩ <;> decide +kernel

/-- The neighbours of a cell are the 20 other cells of its row, column and block, each once, both
in the table and as a set; the neighbour relation is symmetric. -/
theorem C37_neighbors (c : Fin 81) :
    (∀ c' : Fin 81, c' ∈ neighbors c ↔ c' ≠ c ∧ SameHouse c c') ∧
    (neighbors c).length = 20 ∧ (neighbors c).Nodup ∧
    (∀ i, i ∈ elems (neighborsSet c) ↔ i < 81 ∧ (i ≠ c.val ∧ SameHouse c i)) ∧
    (∀ c' : Fin 81, c' ∈ neighbors c ↔ c ∈ neighbors c') := by
  have h1 : ∀ c c' : Fin 81, c' ∈ neighbors c ↔ c' ≠ c ∧ SameHouse c c' := by decide +kernel
  refine ⟨h1 c, by revert c; decide +kernel, by revert c; decide +kernel, fun i =>
    mem_cells (p := fun i => i ≠ c.val ∧ SameHouse c i) (by revert c; decide +kernel), fun c' => ?_⟩
  rw [h1, h1, ne_comm, SameHouse, SameHouse]
  simp only [eq_comm]

/-- All entries of the neighbour tables are in range, so that `Cell::new` and `MiniLine` never see
an invalid number. -/
theorem C37_tables_in_range :
    (∀ c : Fin 81, ∃ l, PosTables.houseNeighborsOfCell[c.val]? = some l ∧ ∀ x ∈ l, x < 81) ∧
    (∀ m : Fin 54, ∃ p, minilineNeighbors m = some p ∧
      p.1.1 < 54 ∧ p.1.2 < 54 ∧ p.2.1 < 54 ∧ p.2.2 < 54) := by
  constructor
  · have h : ∀ c : Fin 81, (match PosTables.houseNeighborsOfCell[c.val]? with
        | some l => l.all (· < 81) | none => false) = true := by decide +kernel
    intro c
    have := h c
    split at this
    · rename_i l e
      exact ⟨l, e, by simpa using this⟩
    · cases this
  · have h : ∀ c : Fin 54, (match minilineNeighbors c with
        | some p => decide (p.1.1 < 54 ∧ p.1.2 < 54 ∧ p.2.1 < 54 ∧ p.2.2 < 54)
        | none => false) = true := by decide +kernel
    intro c
    have := h c
    split at this
    · rename_i l e
      exact ⟨l, e, by simpa using this⟩
    · cases this

/-- Line of a miniline: minirow `m` lies in row `m / 3` and block `3 * (m / 9) + m % 3`; minicolumn
`m` (miniline `27 + m`) lies in column `m / 3` and block `3 * (m % 3) + m / 9`. -/
def miniLineLine (m : Fin 54) : Nat := if m.val < 27 then m.val / 3 else 9 + (m.val - 27) / 3
/-- Block of a miniline. -/
def miniLineBlock (m : Fin 54) : Nat :=
  if m.val < 27 then 3 * (m.val / 9) + m.val % 3 else 3 * (m.val % 3) + (m.val - 27) / 9

/-- A miniline is the three cells common to its line and its block. -/
theorem C37_miniline_cells (m : Fin 54) :
    ∃ (l : Fin 18) (b : Fin 9), l.val = miniLineLine m ∧ b.val = miniLineBlock m ∧
      miniLineCells m = Bitset.inter (lineCells l) (blockCells b) ∧
      Bitset.inter (miniLineCells m) (chuteCells (minilineChute m)) = miniLineCells m ∧
      (elems (miniLineCells m)).card = 3 := by
  revert m; decide +kernel

/-- The neighbours of a miniline: first the two other minilines of the same line, then the two
other parallel minilines of the same block. -/
theorem C37_miniline_neighbors (m : Fin 54) :
    ∃ a b c d : Fin 54, minilineNeighbors m = some ((a.val, b.val), (c.val, d.val)) ∧
      a ≠ b ∧ c ≠ d ∧
      (∀ x : Fin 54, (x = a ∨ x = b) ↔ x ≠ m ∧ miniLineLine x = miniLineLine m) ∧
      (∀ x : Fin 54, (x = c ∨ x = d) ↔ x ≠ m ∧ miniLineBlock x = miniLineBlock m ∧
        (x.val < 27 ↔ m.val < 27)) := by
  obtain ⟨p, hp, h1, h2, h3, h4⟩ := C37_tables_in_range.2 m
  refine ⟨⟨p.1.1, h1⟩, ⟨p.1.2, h2⟩, ⟨p.2.1, h3⟩, ⟨p.2.2, h4⟩, hp, ?_⟩
  have key : ∀ m : Fin 54, (match minilineNeighbors m with
      | none => false
      | some p => decide (p.1.1 ≠ p.1.2 ∧ p.2.1 ≠ p.2.2 ∧
        (∀ x : Fin 54, (x.val = p.1.1 ∨ x.val = p.1.2) ↔
          x ≠ m ∧ miniLineLine x = miniLineLine m) ∧
        (∀ x : Fin 54, (x.val = p.2.1 ∨ x.val = p.2.2) ↔ x ≠ m ∧
          miniLineBlock x = miniLineBlock m ∧ (x.val < 27 ↔ m.val < 27)))) = true := by
    decide +kernel
  have := key m
  rw [hp] at this
  simpa [Fin.ext_iff] using this

/-- The minilines of a chute are the nine lying in it. -/
theorem C37_chute_minilines (c : Fin 6) :
    (minilines c).length = 9 ∧ (minilines c).Nodup ∧
    ∀ m : Fin 54, m ∈ minilines c ↔ minilineChute m = c := by
  refine ⟨rfl, by revert c; decide +kernel, by revert c; decide +kernel⟩

/-- `cells_at` collects the cells at the given positions of a house. -/
theorem C37_cells_at (h : Fin 27) (ps : BitVec 16) (hps : elems ps ⊆ Finset.range 9) :
    ∃ m, houseCellsAt h ps = .ok m ∧
      ∀ i, i ∈ elems m ↔ ∃ p : Fin 9, p.val ∈ elems ps ∧ i = (houseCellAt h p).val := by
  obtain ⟨l, e, -, hm⟩ := Bitset.iter_spec (by omega) (by omega) hps
  unfold houseCellsAt
  rw [e]
  have key : ∀ (l : List Nat) (acc : Cells), (∀ p ∈ l, p < 9) →
      ∃ m, l.foldlM (fun acc p => if hp : p < 9 then
          Res.ok (acc ||| cellCells (houseCellAt h ⟨p, hp⟩)) else .panic) acc = .ok m ∧
        ∀ i, i ∈ elems m ↔ i ∈ elems acc ∨
          ∃ p : Fin 9, p.val ∈ l ∧ i = (houseCellAt h p).val := by
    intro l
    induction l with
    | nil => intro acc _; exact ⟨acc, rfl, fun i => by simp⟩
    | cons p l ih =>
      intro acc hl
      have hp : p < 9 := hl p (by simp)
      rw [List.foldlM_cons, dif_pos hp]
      obtain ⟨m, em, hm⟩ := ih (acc ||| cellCells (houseCellAt h ⟨p, hp⟩))
        (fun q hq => hl q (List.mem_cons_of_mem _ hq))
      refine ⟨m, em, fun i => ?_⟩
      rw [hm]
      have hu : i ∈ elems (acc ||| cellCells (houseCellAt h ⟨p, hp⟩)) ↔
          i ∈ elems acc ∨ i = (houseCellAt h ⟨p, hp⟩).val := by
        have := Bitset.elems_union acc (cellCells (houseCellAt h ⟨p, hp⟩))
        unfold Bitset.union at this
        rw [this, Finset.mem_union, C37_cells.2.2.2.2.2.1]
        have := (houseCellAt h ⟨p, hp⟩).isLt
        constructor
        · rintro (h | h); exacts [.inl h, .inr h.2]
        · rintro (h | h); exacts [.inl h, .inr ⟨by omega, h⟩]
      rw [hu]
      constructor
      · rintro ((h | h) | ⟨q, hq, h⟩)
        · exact .inl h
        · exact .inr ⟨⟨p, hp⟩, by simp, h⟩
        · exact .inr ⟨q, List.mem_cons_of_mem _ hq, h⟩
      · rintro (h | ⟨q, hq, h⟩)
        · exact .inl (.inl h)
        · rcases List.mem_cons.1 hq with e | hq
          · left; right
            rw [h]; congr 2; exact Fin.ext e
          · exact .inr ⟨q, hq, h⟩
  obtain ⟨m, em, h2⟩ := key l 0#128 (fun p hp => by
    have := hps ((hm p).1 hp)
    simpa using this)
  refine ⟨m, em, fun i => ?_⟩
  rw [h2]
  have e0 : elems (0#128) = ∅ := Bitset.elems_NONE
  rw [e0]
  simp only [Finset.notMem_empty, false_or, hm]

/-- Non-vacuity of `C37_cells_at`: the first and last position of the middle block. -/
example : houseCellsAt 22 (0b100000001#16) = .ok (1#128 <<< 30 ||| 1#128 <<< 50) := by rfl

end Verif.Props
