import Verif.Proofs.Prefix
import Verif.Props.Solver

/-!
# C62: one order of the solutions for all limits and all ways to ask
-/
namespace Verif.Props

open Verif Sudoku FastSolver

/-- Two limits. -/
theorem results_take {g : Grid} {n m : Nat} {L L' : List Grid} (hnm : n ≤ m) (h : SolverResults g n L)
    (h' : SolverResults g m L') : L = L'.take n := by
  have e := h.upTo 800 (Nat.le_refl _)
  have e' := h'.upTo 800 (Nat.le_refl _)
  unfold solutionsUpTo at e e'
  obtain ⟨a, ha, e⟩ := ok_of_bind e
  obtain ⟨b, hb, e'⟩ := ok_of_bind e'
  obtain ⟨v, w, rfl, rfl, hv⟩ := runSudoku_cut hnm g a b ha hb
  cases e
  cases e'
  exact hv

/-- **C62**: the solutions of a sudoku have one order.  `solutions_up_to` returns the first ones in this order, as many as
the limit allows; `solutions_up_to_buffer` writes the same ones to the buffer and `some_solution` returns the first. -/
theorem C62_one_order (g : Grid) (hg : WellFormed g) : ∃ all : List Grid, all.Nodup ∧ (∀ t, t ∈ all ↔ IsSolution g t) ∧
    ∀ fuel, 800 ≤ fuel →
      (∀ limit, solutionsUpTo fuel g limit = .ok (all.take limit)) ∧
      (∀ limit, solutionsCountUpTo fuel g limit = .ok (min limit all.length)) ∧
      (∀ limit (target : List Grid), ∃ target', solutionsUpToBuffer fuel g target limit = .ok (min limit all.length, target') ∧
        target'.length = target.length ∧
        ∀ i < target.length, target'[i]? = if i < min limit all.length then all[i]? else target[i]?) ∧
      someSolution fuel g = .ok all.head? := by
  obtain ⟨all, ha⟩ := exists_results hg (numSolutions g)
  have hlen : all.length = numSolutions g := by rw [ha.length, Nat.min_self]
  have key : ∀ limit L, SolverResults g limit L → L = all.take limit := by
    intro limit L hL
    rcases Nat.le_total limit (numSolutions g) with h | h
    · exact results_take h hL ha
    · have e := results_take h ha hL
      have hl : L.length = numSolutions g := by rw [hL.length]; omega
      rw [List.take_of_length_le (by omega)] at e
      rw [List.take_of_length_le (by omega), e]
  have hup : ∀ fuel, 800 ≤ fuel → ∀ limit, solutionsUpTo fuel g limit = .ok (all.take limit) := by
    intro fuel hf limit
    obtain ⟨L, hL⟩ := exists_results hg limit
    rw [hL.upTo fuel hf, key limit L hL]
  refine ⟨all, ha.nodup, fun t => ⟨ha.sound t, ha.complete (Nat.le_refl _) t⟩, fun fuel hf => ⟨hup fuel hf, ?_, ?_, ?_⟩⟩
  · intro limit
    rw [(C02_solutions_count_up_to g hg limit fuel hf).1, hlen]
  · intro limit target
    obtain ⟨L, target', h1, h2, h3, h4⟩ := C03_solutions_up_to_buffer g hg target limit fuel hf
    rw [hup fuel hf] at h1
    cases h1
    refine ⟨target', by rw [h2, hlen], h3, fun i hi => ?_⟩
    rw [h4 i hi, hlen]
    split
    · rw [List.getElem?_take, if_pos (by omega)]
    · rfl
  · obtain ⟨L, hL⟩ := exists_results hg 1
    have hk := key 1 L hL
    unfold someSolution
    rw [hL.buffer fuel hf, hk]
    cases all with
    | nil => rfl
    | cons t ts => rfl

/-- A larger limit does not change the solutions that are found with a smaller one. -/
theorem C62_prefix (g : Grid) (hg : WellFormed g) (n m : Nat) (hnm : n ≤ m) (fuel : Nat) (hf : 800 ≤ fuel) :
    ∃ L L', solutionsUpTo fuel g n = .ok L ∧ solutionsUpTo fuel g m = .ok L' ∧ L = L'.take n := by
  obtain ⟨all, -, -, h⟩ := C62_one_order g hg
  refine ⟨_, _, (h fuel hf).1 n, (h fuel hf).1 m, ?_⟩
  rw [List.take_take, Nat.min_eq_left hnm]

/-- There are sudokus with several solutions, so that the order matters. -/
example : ∃ L L', solutionsUpTo 800 (Vector.replicate 81 0) 2 = .ok L ∧ solutionsUpTo 800 (Vector.replicate 81 0) 3 = .ok L' ∧
    L.length = 2 ∧ L'.length = 3 ∧ L = L'.take 2 := by
  obtain ⟨L, L', h1, h2, h3⟩ := C62_prefix (Vector.replicate 81 0) (by decide +kernel) 2 3 (by omega) 800 (Nat.le_refl _)
  have h : (match solutionsUpTo 800 (Vector.replicate 81 0) 3 with | .ok l => l.length | _ => 0) = 3 := by decide +kernel
  rw [h2] at h
  have h : L'.length = 3 := h
  exact ⟨L, L', h1, h2, by rw [h3, List.length_take]; omega, h, h3⟩

end Verif.Props
