import Verif.Model.GridState
import Verif.Proofs.PrintSolver

/-! Printing a `GridState`. -/
namespace Verif.GridState

open Verif Verif.Strat Verif.GridText

variable {grid : Vector CellState 81}

theorem cellWidth_eq (st : CellState) (h : st.Fits) : (cellWidth st).toNat = (entry (shown st)).length := by
  rw [← printedLen_toNat h]
  cases st with
  | digit => rfl
  | candidates cands =>
    show (max 1 (Bitset.len cands)).toNat = (max (Bitset.len cands) 1).toNat
    rw [toNat_max, toNat_max, Nat.max_comm]

theorem one_le_width (grid : Vector CellState 81) (col : Fin 9) : 1 ≤ width (entries grid) col := by
  refine le_trans ?_ (length_le_width (entries grid) 0 col)
  show 1 ≤ (entry _).length
  rw [length_entry]
  exact Nat.le_max_right _ _

theorem columnWidth_eq (h : ∀ c : Fin 81, grid[c].Fits) (col : Fin 9) :
    columnWidth grid col = .ok (UInt8.ofNat (width (entries grid) col)) := by
  have e : (((List.finRange 9).map (fun row => cellWidth grid[Pos.fromCoords row col])).foldl max 0).toNat =
      width (entries grid) col := by
    rw [foldl_max_toNat, List.map_map, show (0 : UInt8).toNat = 0 from rfl, foldl_max_finRange]
    unfold width
    congr 1
    funext row
    show (cellWidth _).toNat = _
    rw [cellWidth_eq _ (h _)]
    unfold entries
    rw [getElem_fromCoords]
  have h1 := one_le_width grid col
  have h9 := width_le grid col
  unfold columnWidth
  dsimp only
  rw [decide_eq_true]
  · rw [← e, UInt8.ofNat_toNat]
    rfl
  · rw [UInt8.le_iff_toNat_le, UInt8.le_iff_toNat_le, e]
    exact ⟨h1, h9⟩

/-- The widths of the columns. -/
def widthsOf (grid : Vector CellState 81) : Vector UInt8 9 := Vector.ofFn (fun col => UInt8.ofNat (width (entries grid) col))

theorem widthsOf_toNat (col : Fin 9) : ((widthsOf grid)[col]).toNat = width (entries grid) col := by
  have e : (widthsOf grid)[col] = UInt8.ofNat (width (entries grid) col) := by
    show (Vector.ofFn _)[col.val] = _
    rw [Vector.getElem_ofFn]
  rw [e]
  have := width_le grid col
  rw [UInt8.toNat_ofNat']
  exact Nat.mod_eq_of_lt (by omega)

theorem printMinirow_eq (h : ∀ c : Fin 81, grid[c].Fits) (row : Fin 9) (stack : Fin 3) :
    printMinirow grid (widthsOf grid) row stack = .ok (
      ([' '] ++ padded (width (entries grid) (stackCol stack 0)) (entries grid row (stackCol stack 0)) ++ [' ']) ++
      ([' '] ++ padded (width (entries grid) (stackCol stack 1)) (entries grid row (stackCol stack 1)) ++ [' ']) ++
      ([' '] ++ padded (width (entries grid) (stackCol stack 2)) (entries grid row (stackCol stack 2)) ++ [' ']) ++ ['│']) := by
  have cell : ∀ col : Fin 3, (grid[Pos.fromCoords row (stackCol stack col)]).display
      (some ((widthsOf grid)[stackCol stack col]).toNat) =
        .ok (padded (width (entries grid) (stackCol stack col)) (entries grid row (stackCol stack col))) := by
    intro col
    rw [CellState.display_eq (h _), widthsOf_toNat, getElem_fromCoords]
    rfl
  unfold printMinirow
  simp only [cell, Res.ok_bind]
  refine congrArg Res.ok ?_
  simp only [List.append_assoc, List.cons_append, List.nil_append]

theorem printBand_eq (h : ∀ c : Fin 81, grid[c].Fits) (band : Fin 3) : printBand grid (widthsOf grid) band =
    .ok (rowText (entries grid) (stackCol band 0) ++ ['\n'] ++ (rowText (entries grid) (stackCol band 1) ++ ['\n']) ++
      (rowText (entries grid) (stackCol band 2) ++ ['\n'])) := by
  have row : ∀ row : Fin 9, (do
      let parts ← (List.finRange 3).mapM (printMinirow grid (widthsOf grid) row)
      Res.ok (['│'] ++ parts.flatten ++ ['\n'])) = .ok (rowText (entries grid) row ++ ['\n']) := by
    intro row
    rw [Res.mapM_ok _ _ _ (fun stack _ => printMinirow_eq h row stack), Res.ok_bind]
    refine congrArg Res.ok ?_
    unfold rowText framed
    simp only [finRange3, List.map_cons, List.map_nil, List.flatten_cons, List.flatten_nil, List.append_assoc,
      List.append_nil, List.nil_append, List.cons_append]
    rfl
  unfold printBand
  rw [Res.mapM_ok _ _ _ (fun r _ => row (stackCol band r)), Res.ok_bind]
  simp only [finRange3, List.map_cons, List.map_nil, List.flatten_cons, List.flatten_nil, List.append_nil, List.append_assoc]

theorem printDelimiter_eq (l m : Char) (r : Char) (rest : List Char) :
    printDelimiter (widthsOf grid) l m (r :: rest) = rule (entries grid) l m r ++ rest := by
  have w : ∀ k : Fin 3, stackWidth (widthsOf grid) k = (1 + width (entries grid) (stackCol k 0) + 1) +
      (1 + width (entries grid) (stackCol k 1) + 1) + (1 + width (entries grid) (stackCol k 2) + 1) := by
    intro k
    unfold stackWidth
    simp only [finRange3, List.map_cons, List.map_nil, List.sum_cons, List.sum_nil, widthsOf_toNat]
    omega
  unfold printDelimiter rule framed
  have key : ∀ k : Fin 3, List.replicate (stackWidth (widthsOf grid) k) '─' =
      List.replicate (1 + width (entries grid) (stackCol k 0) + 1) '─' ++
      List.replicate (1 + width (entries grid) (stackCol k 1) + 1) '─' ++
      List.replicate (1 + width (entries grid) (stackCol k 2) + 1) '─' := by
    intro k
    rw [w, ← List.replicate_add, ← List.replicate_add]
  rw [key, key, key]
  simp only [List.append_assoc, List.cons_append, List.nil_append]
  rfl

theorem display_eq (h : ∀ c : Fin 81, grid[c].Fits) :
    ∃ text, display grid = .ok text ∧ text ++ ['\n'] = table (entries grid) := by
  have hw : (Vector.ofFn (fun col : Fin 9 => ((List.finRange 9).map (fun col => UInt8.ofNat (width (entries grid) col))).getD
      col.val 0) : Vector UInt8 9) = widthsOf grid := by
    unfold widthsOf
    congr 1
    funext col
    rw [List.getD_eq_getElem?_getD, List.getElem?_map, List.getElem?_eq_getElem (by simp)]
    simp
  unfold display
  rw [Res.mapM_ok _ _ _ (fun col _ => columnWidth_eq h col), Res.ok_bind]
  dsimp only
  rw [hw, printBand_eq h, Res.ok_bind, printBand_eq h, Res.ok_bind, printBand_eq h, Res.ok_bind]
  refine ⟨_, rfl, ?_⟩
  simp only [printDelimiter_eq]
  unfold table tableLines
  have s : stackCol 0 0 = 0 ∧ stackCol 0 1 = 1 ∧ stackCol 0 2 = 2 ∧ stackCol 1 0 = 3 ∧ stackCol 1 1 = 4 ∧
    stackCol 1 2 = 5 ∧ stackCol 2 0 = 6 ∧ stackCol 2 1 = 7 ∧ stackCol 2 2 = 8 := by decide
  simp only [s, List.flatMap_cons, List.flatMap_nil, List.append_assoc, List.append_nil]

/-- Reading depends on the words only. -/
theorem fromGridStateStr_newline (text : List Char) :
    Solver.fromGridStateStr (text ++ ['\n']) = Solver.fromGridStateStr text := by
  have e : (Text.lines (text ++ ['\n'])).flatMap splitWhitespace = (Text.lines text).flatMap splitWhitespace := by
    rw [show splitWhitespace = words from funext splitWhitespace_eq, words_lines, words_lines]
    have := words_append newline_ws text []
    rw [this, words_nil, List.append_nil]
  unfold Solver.fromGridStateStr
  rw [e]

/-- The solutions of a grid state, by the digits shown. -/
theorem solution_iff_shown {state : Vector CellState 81} {t : Grid} : SolutionOf (digitsOf state) (excludedBy state) t ↔
    Solved t ∧ ∀ (c : Fin 81) (d : Digit), t[c] = d.get → d ∈ shown state[c] := by
  constructor
  · rintro ⟨⟨h1, h2⟩, h3⟩
    refine ⟨h1, fun c d hcd => (mem_shown_iff _ _ _).mpr ⟨fun hx => h3 c d hx hcd, fun h0 => by rw [← h2 c h0]; exact hcd⟩⟩
  · rintro ⟨h1, h2⟩
    refine ⟨⟨h1, fun c h0 => ?_⟩, fun c d hx hcd => ((mem_shown_iff _ _ _).mp (h2 c d hcd)).1 hx⟩
    have hc := dig_spec h1 c
    rw [((mem_shown_iff _ _ _).mp (h2 c _ hc)).2 h0]
    exact hc

end Verif.GridState
