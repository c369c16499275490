import Verif.Proofs.Clues
import Verif.Spec.Examples

/-!
# C01-C07: the fast solver

`fuel` bounds the loops and the recursion of the model; the theorems hold for every `fuel ≥ 800`.
A model run that would exceed its fuel returns `Res.timeout`, one that would panic (index out of
bounds, failed `debug_assert!`, overflow) returns `Res.panic`; every theorem below says the
result is `Res.ok`.
-/
namespace Verif.Props

open Verif Sudoku

/-- C01.  `solutions_up_to(limit)`: no repetitions, only solutions, as many as `limit` and the
number of solutions allow. -/
theorem C01_solutions_up_to (g : Grid) (hg : WellFormed g) (limit fuel : Nat) (hf : 800 ≤ fuel) :
    ∃ L : List Grid, solutionsUpTo fuel g limit = .ok L ∧
      L.Nodup ∧ (∀ t ∈ L, IsSolution g t) ∧ L.length = min limit (numSolutions g) := by
  obtain ⟨L, h⟩ := exists_results hg limit
  exact ⟨L, h.upTo fuel hf, h.nodup, h.sound, h.length⟩

/-- C01, consequences: all solutions if the limit allows; an empty answer means unsolvable. -/
theorem C01_all_solutions (g : Grid) (hg : WellFormed g) (limit fuel : Nat) (hf : 800 ≤ fuel) :
    ∃ L : List Grid, solutionsUpTo fuel g limit = .ok L ∧
      (numSolutions g ≤ limit → ∀ t, t ∈ L ↔ IsSolution g t) ∧
      (0 < limit → L = [] → ∀ t, ¬ IsSolution g t) := by
  obtain ⟨L, h⟩ := exists_results hg limit
  refine ⟨L, h.upTo fuel hf, fun hl t => ⟨h.sound t, h.complete hl t⟩, fun hl he => ?_⟩
  have := h.length
  rw [he, List.length_nil] at this
  exact numSolutions_eq_zero.1 (by omega)

/-- The hypotheses are met by a real puzzle, which has a solution; the empty and a contradictory
board are covered as well. -/
example : WellFormed Ex.puzzle ∧ IsSolution Ex.puzzle Ex.solved ∧ WellFormed Ex.empty ∧
    WellFormed Ex.contradictory := by decide +kernel

/-- C02.  `solutions_count_up_to(limit)`. -/
theorem C02_solutions_count_up_to (g : Grid) (hg : WellFormed g) (limit fuel : Nat) (hf : 800 ≤ fuel) :
    solutionsCountUpTo fuel g limit = .ok (min limit (numSolutions g)) ∧
      ∃ L, solutionsUpTo fuel g limit = .ok L ∧ solutionsCountUpTo fuel g limit = .ok L.length := by
  obtain ⟨L, h⟩ := exists_results hg limit
  exact ⟨by rw [h.count fuel hf, h.length], L, h.upTo fuel hf, h.count fuel hf⟩

/-- Non-vacuity: the count of the example puzzle is 1, that of a contradictory board is 0. -/
example : numSolutions Ex.puzzle = 1 ∧ numSolutions Ex.contradictory = 0 := by
  constructor
  · have h1 := (C02_solutions_count_up_to Ex.puzzle (by decide +kernel) 2 800 le_rfl).1
    have h2 : solutionsCountUpTo 800 Ex.puzzle 2 = .ok 1 := by decide +kernel
    rw [h2] at h1
    have : 1 = min 2 (numSolutions Ex.puzzle) := Res.ok.inj h1
    omega
  · have h1 := (C02_solutions_count_up_to Ex.contradictory (by decide +kernel) 2 800 le_rfl).1
    have h2 : solutionsCountUpTo 800 Ex.contradictory 2 = .ok 0 := by decide +kernel
    rw [h2] at h1
    have : 0 = min 2 (numSolutions Ex.contradictory) := Res.ok.inj h1
    omega

/-- C03.  `solutions_up_to_buffer(target, limit)`: the count, and the exact content of the buffer
afterwards: slot `i` holds the `i`-th solution of `solutions_up_to(limit)` if there is one, and is
unchanged otherwise.  The buffer keeps its length whatever it is (even zero). -/
theorem C03_solutions_up_to_buffer (g : Grid) (hg : WellFormed g) (target : List Grid)
    (limit fuel : Nat) (hf : 800 ≤ fuel) :
    ∃ (L target' : List Grid), solutionsUpTo fuel g limit = .ok L ∧
      solutionsUpToBuffer fuel g target limit = .ok (min limit (numSolutions g), target') ∧
      target'.length = target.length ∧
      ∀ i < target.length,
        target'[i]? = if i < min limit (numSolutions g) then L[i]? else target[i]? := by
  obtain ⟨L, h⟩ := exists_results hg limit
  refine ⟨L, writeFrom target 0 L, h.upTo fuel hf, by rw [h.buffer fuel hf, h.length],
    writeFrom_length _ _ _, fun i hi => ?_⟩
  rw [writeFrom_get L target 0 i hi, ← h.length]
  simp

/-- Non-vacuity: a buffer of two slots, one solution: one slot written, the other kept. -/
example : WellFormed Ex.puzzle ∧
    solutionsUpToBuffer 800 Ex.puzzle [Ex.empty, Ex.contradictory] 5 = .ok (1, [Ex.solved, Ex.contradictory]) := by
  decide +kernel

/-- C04.  `some_solution`. -/
theorem C04_some_solution (g : Grid) (hg : WellFormed g) (fuel : Nat) (hf : 800 ≤ fuel) :
    (someSolution fuel g = .ok none ∧ ∀ t, ¬ IsSolution g t) ∨
      ∃ t, someSolution fuel g = .ok (some t) ∧ IsSolution g t := by
  obtain ⟨L, h⟩ := exists_results hg 1
  unfold someSolution
  rw [h.buffer fuel hf]
  match L, h with
  | [], h =>
    left
    refine ⟨rfl, numSolutions_eq_zero.1 ?_⟩
    have := h.length
    simp only [List.length_nil] at this
    omega
  | [t], h => exact Or.inr ⟨t, rfl, h.sound t (by simp)⟩
  | t :: t' :: L, h =>
    have := h.length
    simp only [List.length_cons] at this
    omega

example : someSolution 800 Ex.puzzle = .ok (some Ex.solved) ∧
    someSolution 800 Ex.contradictory = .ok none := by decide +kernel

/-- C05.  `is_uniquely_solvable`. -/
theorem C05_is_uniquely_solvable (g : Grid) (hg : WellFormed g) (fuel : Nat) (hf : 800 ≤ fuel) :
    ∃ b : Bool, isUniquelySolvable fuel g = .ok b ∧ (b = true ↔ UniquelySolvable g) := by
  unfold isUniquelySolvable
  rw [(C02_solutions_count_up_to g hg 2 fuel hf).1]
  refine ⟨_, rfl, ?_⟩
  rw [decide_eq_true_iff, ← numSolutions_eq_one]
  omega

/-- Non-vacuity: both answers occur. -/
example : isUniquelySolvable 800 Ex.puzzle = .ok true ∧
    isUniquelySolvable 800 Ex.twoSolutions = .ok false := by decide +kernel

/-- The conjecture settled by the computation of McGuire, Tugemann and Civario (2012): no sudoku
with fewer than 17 clues has a unique solution.  It is not proved here. -/
def SeventeenClues : Prop := ∀ g, WellFormed g → clueCount g < 17 → ¬ UniquelySolvable g

/-- What `solution` returns, exactly: the unique solution of sudokus with at least 17 clues. -/
theorem solution_spec (g : Grid) (hg : WellFormed g) (fuel : Nat) (hf : 800 ≤ fuel) :
    ∃ r : Option Grid, solution fuel g = .ok r ∧
      ∀ t, r = some t ↔ 17 ≤ clueCount g ∧ IsSolution g t ∧ ∀ t', IsSolution g t' → t' = t := by
  obtain ⟨hn, _⟩ := scanClues_spec hg
  have hmiss := missing_of_few hg
  unfold solution
  generalize hs : scanClues g = s at hn hmiss
  obtain ⟨m, n⟩ := s
  simp only at hn hmiss ⊢
  by_cases h1 : n < 17 ∨ Bitset.countOnes m < 8
  · rw [if_pos h1]
    refine ⟨none, rfl, fun t => ⟨fun h => by (cases h), fun ⟨h17, ht, hu⟩ => ?_⟩⟩
    rcases h1 with h1 | h1
    · omega
    · exact absurd ⟨t, ht, hu⟩ (hmiss h1)
  · rw [if_neg h1]
    obtain ⟨L, h⟩ := exists_results hg 2
    rw [h.buffer fuel hf]
    match L, h with
    | [], h =>
      refine ⟨none, rfl, fun t => ⟨fun h => by (cases h), fun ⟨_, ht, _⟩ => ?_⟩⟩
      have := h.length
      simp only [List.length_nil] at this
      exact absurd ht (numSolutions_eq_zero.1 (by omega) t)
    | [t0], h =>
      have h1' := h.length
      simp only [List.length_cons, List.length_nil] at h1'
      obtain ⟨t1, ht1, hu1⟩ := numSolutions_eq_one.1 (show numSolutions g = 1 by omega)
      have h0 := h.sound t0 (by simp)
      refine ⟨some t0, rfl, fun t => ⟨fun e => ?_, fun ⟨_, _, hu⟩ => ?_⟩⟩
      · cases e
        exact ⟨by omega, h0, fun t' ht' => (hu1 t' ht').trans (hu1 t0 h0).symm⟩
      · rw [hu t0 h0]
    | [t0, t1], h =>
      have hnd := h.nodup
      refine ⟨none, rfl, fun t => ⟨fun h => by (cases h), fun ⟨_, _, hu⟩ => ?_⟩⟩
      have e0 := hu t0 (h.sound t0 (by simp))
      have e1 := hu t1 (h.sound t1 (by simp))
      rw [e0, e1] at hnd
      simp at hnd
    | t0 :: t1 :: t2 :: L, h =>
      have := h.length
      simp only [List.length_cons] at this
      omega

/-- C06 (partial): `solution` returns `Some(t)` exactly when `t` is the only solution, for sudokus
with at least 17 clues; with fewer clues it returns `None`.
Missing for the full statement: `SeventeenClues`, see `C06_solution_of_seventeen`. -/
theorem C06_solution_partial (g : Grid) (hg : WellFormed g) (fuel : Nat) (hf : 800 ≤ fuel) :
    ∃ r : Option Grid, solution fuel g = .ok r ∧
      (∀ t, r = some t → IsSolution g t ∧ ∀ t', IsSolution g t' → t' = t) ∧
      (17 ≤ clueCount g → ∀ t, (r = some t ↔ IsSolution g t ∧ ∀ t', IsSolution g t' → t' = t)) ∧
      (clueCount g < 17 → r = none) := by
  obtain ⟨r, h1, h2⟩ := solution_spec g hg fuel hf
  refine ⟨r, h1, fun t ht => ((h2 t).1 ht).2, fun h t => ?_, fun h => ?_⟩
  · rw [h2]; exact and_iff_right h
  · cases r with
    | none => rfl
    | some t => have := ((h2 t).1 rfl).1; omega

/-- C06 in full, assuming the 17-clue theorem. -/
theorem C06_solution_of_seventeen (h17 : SeventeenClues) (g : Grid) (hg : WellFormed g) (fuel : Nat)
    (hf : 800 ≤ fuel) :
    ∃ r : Option Grid, solution fuel g = .ok r ∧
      ∀ t, r = some t ↔ IsSolution g t ∧ ∀ t', IsSolution g t' → t' = t := by
  obtain ⟨r, h1, h2⟩ := solution_spec g hg fuel hf
  refine ⟨r, h1, fun t => ?_⟩
  rw [h2]
  refine and_iff_right_of_imp fun h => ?_
  by_contra hn
  exact h17 g hg (by omega) ⟨t, h⟩

/-- Non-vacuity: a puzzle with at least 17 clues. -/
example : WellFormed Ex.puzzle ∧ 17 ≤ clueCount Ex.puzzle ∧
    solution 800 Ex.puzzle = .ok (some Ex.solved) := by decide +kernel

/-- C07.  Every function built on the fast solver returns: no panic, no timeout, and the value does
not depend on the fuel. -/
theorem C07_solver_total (g : Grid) (hg : WellFormed g) (limit : Nat) (buf : List Grid) :
    (∃ v, ∀ fuel, 800 ≤ fuel → solutionsUpTo fuel g limit = .ok v) ∧
    (∃ v, ∀ fuel, 800 ≤ fuel → solutionsCountUpTo fuel g limit = .ok v) ∧
    (∃ v, ∀ fuel, 800 ≤ fuel → solutionsUpToBuffer fuel g buf limit = .ok v) ∧
    (∃ v, ∀ fuel, 800 ≤ fuel → someSolution fuel g = .ok v) ∧
    (∃ v, ∀ fuel, 800 ≤ fuel → solution fuel g = .ok v) ∧
    (∃ v, ∀ fuel, 800 ≤ fuel → isUniquelySolvable fuel g = .ok v) := by
  obtain ⟨L, h⟩ := exists_results hg limit
  obtain ⟨L1, h1⟩ := exists_results hg 1
  obtain ⟨L2, h2⟩ := exists_results hg 2
  refine ⟨⟨_, h.upTo⟩, ⟨_, h.count⟩, ⟨_, fun fuel hf => h.buffer fuel hf buf⟩, ?_, ?_, ?_⟩
  · rcases C04_some_solution g hg 800 le_rfl with ⟨e, _⟩ | ⟨t, e, _⟩
    all_goals
      refine ⟨_, fun fuel hf => Eq.trans ?_ e⟩
      unfold someSolution
      rw [h1.buffer fuel hf, h1.buffer 800 le_rfl]
  · obtain ⟨r, e, _⟩ := solution_spec g hg 800 le_rfl
    refine ⟨r, fun fuel hf => Eq.trans ?_ e⟩
    unfold solution
    rw [h2.buffer fuel hf, h2.buffer 800 le_rfl]
  · obtain ⟨r, e, _⟩ := C05_is_uniquely_solvable g hg 800 le_rfl
    refine ⟨r, fun fuel hf => Eq.trans ?_ e⟩
    unfold isUniquelySolvable
    rw [h2.count fuel hf, h2.count 800 le_rfl]

example : WellFormed Ex.empty ∧ WellFormed Ex.contradictory ∧ WellFormed Ex.puzzle := by decide +kernel

end Verif.Props
