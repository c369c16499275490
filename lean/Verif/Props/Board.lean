import Verif.Proofs.IsSolved
import Verif.Proofs.Clues
import Verif.Spec.Examples

/-!
# C08-C10: reading and constructing boards
-/
namespace Verif.Props

open Verif Sudoku

/-- C08.  `is_solved` is true exactly for the valid completed grids. -/
theorem C08_is_solved (g : Grid) : isSolved g = true ↔ Solved g := isSolved_iff g

/-- The specification's `Solved` is the usual rule: cells filled with `1..9`, and every row, every
column and every block contains each digit exactly once. -/
theorem solved_iff_exactly_once (g : Grid) : Solved g ↔
    (∀ c : Fin 81, 1 ≤ g[c] ∧ g[c] ≤ 9) ∧
    ∀ (k d : Fin 9),
      (∃! c : Fin 81, rowOf c = k ∧ g[c].toNat = d + 1) ∧
      (∃! c : Fin 81, colOf c = k ∧ g[c].toNat = d + 1) ∧
      (∃! c : Fin 81, blockOf c = k ∧ g[c].toNat = d + 1) := by
  constructor
  · intro h
    refine ⟨h.1, fun k d => ⟨?_, ?_, ?_⟩⟩
    · obtain ⟨c, h1, h2⟩ := h.exists_row k d
      refine ⟨c, ⟨h1, h2⟩, fun c' ⟨h1', h2'⟩ => h.inj (Or.inl (h1'.trans h1.symm)) (h2'.trans h2.symm)⟩
    · obtain ⟨c, h1, h2⟩ := h.exists_col k d
      refine ⟨c, ⟨h1, h2⟩, fun c' ⟨h1', h2'⟩ => h.inj (Or.inr (Or.inl (h1'.trans h1.symm))) (h2'.trans h2.symm)⟩
    · obtain ⟨c, h1, h2⟩ := h.exists_block k d
      refine ⟨c, ⟨h1, h2⟩, fun c' ⟨h1', h2'⟩ => h.inj (Or.inr (Or.inr (h1'.trans h1.symm))) (h2'.trans h2.symm)⟩
  · rintro ⟨h1, h2⟩
    refine ⟨h1, fun c c' hne hs e => hne ?_⟩
    have hc : 1 ≤ g[c].toNat ∧ g[c].toNat ≤ 9 := ⟨(h1 c).1, (h1 c).2⟩
    have hcb := c.isLt
    have hd : g[c].toNat = (⟨g[c].toNat - 1, by omega⟩ : Fin 9).val + 1 := by simp only; omega
    have hd' : g[c'].toNat = (⟨g[c].toNat - 1, by omega⟩ : Fin 9).val + 1 := by rw [← e]; exact hd
    rcases hs with hs | hs | hs
    · obtain ⟨_, _, hu⟩ := (h2 ⟨rowOf c, by unfold rowOf; omega⟩ ⟨g[c].toNat - 1, by omega⟩).1
      exact (hu c ⟨rfl, hd⟩).trans (hu c' ⟨hs.symm, hd'⟩).symm
    · obtain ⟨_, _, hu⟩ := (h2 ⟨colOf c, by unfold colOf; omega⟩ ⟨g[c].toNat - 1, by omega⟩).2.1
      exact (hu c ⟨rfl, hd⟩).trans (hu c' ⟨hs.symm, hd'⟩).symm
    · obtain ⟨_, _, hu⟩ := (h2 ⟨blockOf c, by unfold blockOf rowOf colOf; omega⟩ ⟨g[c].toNat - 1, by omega⟩).2.2
      exact (hu c ⟨rfl, hd⟩).trans (hu c' ⟨hs.symm, hd'⟩).symm

/-- Non-vacuity: both answers occur. -/
example : isSolved Ex.solved = true ∧ isSolved Ex.puzzle = false ∧
    isSolved (Ex.solved.set 0 5) = false := by decide +kernel

/-- C09.  `to_bytes` after `from_bytes`, `iter` and `n_clues`.  `n_clues` is a `u8`; its numeric
value is the number of filled cells, so nothing is lost by the cast. -/
theorem C09_cells (g : Grid) :
    (∀ b, fromBytes b = some g → toBytes g = b) ∧
    (iter g).length = 81 ∧
    (∀ c : Fin 81, (iter g)[c.val]? = some (if g[c] = 0 then none else some g[c])) ∧
    (nClues g).toNat = clueCount g := by
  refine ⟨fun b h => ?_, by simp [iter], fun c => ?_, ?_⟩
  · unfold fromBytes at h
    split at h
    · cases h; rfl
    · cases h
  · simp only [iter, List.getElem?_map]
    have : g.toList[c.val]? = some g[c] := by simp
    rw [this]; rfl
  · unfold nClues
    rw [clueCount_eq]
    have := clueCount_le g
    simp; omega

example : clueCount Ex.puzzle = 32 ∧ clueCount Ex.solved = 81 ∧ fromBytes Ex.puzzle = some Ex.puzzle := by
  decide +kernel

theorem foldl_and (l : List UInt8) (b : Bool) :
    l.foldl (fun valid byte => valid && decide (byte ≤ 9)) b = true ↔ b = true ∧ ∀ x ∈ l, x ≤ 9 := by
  induction l generalizing b with
  | nil => simp
  | cons x l ih => simp only [List.foldl_cons, ih, Bool.and_eq_true, decide_eq_true_eq, List.mem_cons, forall_eq_or_imp]; tauto

/-- C10, `from_bytes`: succeeds exactly for bytes `0..9`, and stores them unchanged. -/
theorem C10_from_bytes (b : Vector UInt8 81) (g : Grid) :
    fromBytes b = some g ↔ WellFormed b ∧ g = b := by
  have key : b.toList.foldl (fun valid byte => valid && decide (byte ≤ 9)) true = true ↔ WellFormed b := by
    rw [foldl_and, toList_eq_map]
    simp [WellFormed]
  unfold fromBytes
  split
  · rename_i h
    rw [key] at h
    simp [h, eq_comm]
  · rename_i h
    have : ¬ WellFormed b := fun hw => by rw [key.2 hw] at h; cases h
    simp [this]

/-- C10, `from_bytes_slice`: the three outcomes. -/
theorem C10_from_bytes_slice (b : List UInt8) :
    (b.length ≠ 81 ∧ fromBytesSlice b = .error (.wrongLength b.length)) ∨
    (b.length = 81 ∧ (∃ x ∈ b, 9 < x) ∧ fromBytesSlice b = .error .fromBytes) ∨
    (∃ g : Grid, (∀ x ∈ b, x ≤ 9) ∧ g.toList = b ∧ fromBytes g = some g ∧ fromBytesSlice b = .ok g) := by
  unfold fromBytesSlice
  by_cases h : b.toArray.size = 81
  · rw [dif_pos h]
    right
    set v : Vector UInt8 81 := ⟨b.toArray, h⟩ with hv
    have hl : v.toList = b := by simp [hv]
    have hwf : WellFormed v ↔ ∀ x ∈ b, x ≤ 9 := by
      rw [← hl, toList_eq_map]; simp [WellFormed]
    by_cases hw : WellFormed v
    · right
      have := (C10_from_bytes v v).2 ⟨hw, rfl⟩
      exact ⟨v, hwf.1 hw, hl, this, by rw [this]⟩
    · left
      have hnone : fromBytes v = none := by
        cases hf : fromBytes v with
        | none => rfl
        | some g => exact absurd ((C10_from_bytes v g).1 hf).1 hw
      refine ⟨by simpa using h, ?_, by rw [hnone]⟩
      rw [hwf] at hw
      push Not at hw
      obtain ⟨x, hx, h9⟩ := hw
      exact ⟨x, hx, UInt8.not_le.1 h9⟩
  · rw [dif_neg h]
    left
    exact ⟨by simpa using h, rfl⟩

/-- Non-vacuity: the three outcomes occur. -/
example : fromBytesSlice [1, 2] = .error (.wrongLength 2) ∧
    fromBytesSlice (List.replicate 81 10) = .error .fromBytes ∧
    fromBytesSlice Ex.puzzle.toList = .ok Ex.puzzle := by
  refine ⟨by rfl, by rfl, by rfl⟩

end Verif.Props
