import Verif.Spec.Symmetry
import Verif.Props.Prefix
import Verif.Props.Singles
import Verif.Props.StrategyNews

/-!
# C48 without a solution, C63: the strategy solver and the fast solver together

`Singles` is imported so that files that need much memory are not checked at the same time.
-/
namespace Verif.Props

open Verif Verif.Strat

variable {looked : Bool} {s : Solver} {g : Grid} {X : Fin 81 → Digit → Prop} {fuel : Nat}

/-- **C48**: the grid that comes back consists of the given digits and the entries of the deductions, also for unsolvable
sudokus, unless `cell_state` was called while a contradiction was visible.  Without this condition it is false:
`C48_overwritten_false`. -/
theorem C48_exact (h : Reaches looked s g X) (hc : looked = false ∨ Consistent g X) (hf : 1000 ≤ fuel)
    (sts : List Strategy) (r : Grid × Deductions) (hr : Returned fuel sts s r) (c : Fin 81) (d : Digit) :
    r.1[c] = d.get ↔ g[c] = d.get ∨ ∃ i x, r.2.get i = .ok (some x) ∧ Pattern.entry x = some ⟨c, d⟩ := by
  obtain ⟨h1, h2, h3⟩ := C48_accounted h hc hf sts r hr
  have once := C51_entries_once h hf sts r hr
  constructor
  · intro hd
    obtain ⟨d', e1, e2⟩ := h1 c (by rw [hd]; exact Digit.get_ne_zero d)
    cases Digit.get_inj (hd.symm.trans e1)
    exact e2
  · rintro (hd | ⟨i, x, hx, he⟩)
    · have hne : g[c] ≠ 0 := by rw [hd]; exact Digit.get_ne_zero d
      obtain ⟨d', e1, e2 | ⟨i, x, hx, he⟩⟩ := h1 c (h2 c hne)
      · rw [e1, ← e2, hd]
      · exact absurd (once i x _ hx he).1 hne
    · obtain ⟨h0, h4⟩ := once i x _ hx he
      obtain ⟨d', e1, e2 | ⟨j, y, hy, he'⟩⟩ := h1 c (h3 i x _ hx he)
      · have h0 : g[c] = 0 := h0
        rw [h0] at e2
        exact absurd e2.symm (Digit.get_ne_zero d')
      · cases h4 j y _ hy he' rfl
        rw [hx] at hy
        cases hy
        rw [he] at he'
        cases he'
        exact e1

/-- **C63**: solving by strategies changes nothing for the fast solver: the grid that comes back, finished or not, has the
same solutions as the sudoku. -/
theorem C63_same_solutions (g : Grid) (hg : WellFormed g) (hs : Solver.fromSudoku g = .ok s) (hf : 1000 ≤ fuel)
    (sts : List Strategy) (r : Grid × Deductions) (hr : Returned fuel sts s r) :
    WellFormed r.1 ∧ SubClues g r.1 ∧ ∀ t, IsSolution r.1 t ↔ IsSolution g t := by
  have hre : Reaches false s g (fun _ _ => False) := .sudoku hg hs
  have hx := C48_exact hre (Or.inl rfl) hf sts r hr
  have hsub : SubClues g r.1 := by
    intro c
    by_cases h0 : g[c] = 0
    · exact .inl h0
    · obtain ⟨d, hd⟩ := hre.inv.1.wf c h0
      exact .inr (hd.trans ((hx c d).2 (Or.inl hd)).symm)
  refine ⟨fun c => ?_, hsub, fun t => ⟨fun ht => ⟨ht.1, fun c hc => ?_⟩, fun ht => ⟨ht.1, fun c hc => ?_⟩⟩⟩
  · obtain ⟨h1, -⟩ := C48_accounted hre (Or.inl rfl) hf sts r hr
    by_cases h0 : r.1[c] = 0
    · rw [h0]; decide
    · obtain ⟨d, hd, -⟩ := h1 c h0
      rw [hd]
      exact (by decide : ∀ d : Digit, d.get ≤ 9) d
  · have := (hsub c).resolve_left hc
    rw [this]
    exact ht.2 c (by rw [← this]; exact hc)
  · exact (((C39_from_sudoku g hg hs hf sts r hr t ht).1 c).resolve_left hc).symm

/-- **C63**: so the fast solver counts the same number of solutions before and after, with every limit. -/
theorem C63_same_count (g : Grid) (hg : WellFormed g) (hs : Solver.fromSudoku g = .ok s) (hf : 1000 ≤ fuel)
    (sts : List Strategy) (r : Grid × Deductions) (hr : Returned fuel sts s r) (limit : Nat) :
    ∃ n, Sudoku.solutionsCountUpTo fuel r.1 limit = .ok n ∧ Sudoku.solutionsCountUpTo fuel g limit = .ok n := by
  obtain ⟨h1, -, h2⟩ := C63_same_solutions g hg hs hf sts r hr
  refine ⟨_, (C02_solutions_count_up_to r.1 h1 limit fuel (by omega)).1, ?_⟩
  rw [(C02_solutions_count_up_to g hg limit fuel (by omega)).1]
  have : solutionSet r.1 = solutionSet g := Set.ext h2
  unfold numSolutions
  rw [this]

/-- **C63**: if the strategies suffice, the fast solver finds the same grid and no other one. -/
theorem C63_agree (g : Grid) (hg : WellFormed g) (hs : Solver.fromSudoku g = .ok s) (hf : 1000 ≤ fuel)
    (sts : List Strategy) (r : Grid × Deductions) (hr : s.solve fuel sts = .ok (.ok r)) :
    Sudoku.isUniquelySolvable fuel g = .ok true ∧ Sudoku.someSolution fuel g = .ok (some r.1) ∧
    (∀ limit, 1 ≤ limit → Sudoku.solutionsUpTo fuel g limit = .ok [r.1]) ∧
    (17 ≤ clueCount g → Sudoku.solution fuel g = .ok (some r.1)) := by
  obtain ⟨h1, h2⟩ := C40_from_sudoku g hg hs hf sts r hr
  obtain ⟨all, n, m, h⟩ := C62_one_order g hg
  have hall : all = [r.1] := by
    have hmem : r.1 ∈ all := (m _).2 h1
    match all, n, m, hmem with
    | [t], _, m, _ => rw [h2 t ((m t).1 (by simp))]
    | t :: t' :: L, n, m, _ =>
      have e1 := h2 t ((m t).1 (by simp))
      have e2 := h2 t' ((m t').1 (by simp))
      rw [e1, e2] at n
      simp at n
  subst hall
  obtain ⟨g1, -, -, g4⟩ := h fuel (by omega)
  refine ⟨?_, g4, fun limit hl => ?_, fun hl => ?_⟩
  · obtain ⟨b, e1, e2⟩ := C05_is_uniquely_solvable g hg fuel (by omega)
    rw [e1, e2.2 ⟨r.1, h1, h2⟩]
  · rw [g1, List.take_of_length_le (by simpa using hl)]
  · obtain ⟨x, e1, -, e2, -⟩ := C06_solution_partial g hg fuel (by omega)
    rw [e1, (e2 hl r.1).2 ⟨h1, h2⟩]

/-- **C63**: and if the fast solver finds no or several solutions, no strategies suffice. -/
theorem C63_not_unique (g : Grid) (hg : WellFormed g) (hs : Solver.fromSudoku g = .ok s) (hf : 1000 ≤ fuel)
    (hu : Sudoku.isUniquelySolvable fuel g = .ok false) (sts : List Strategy) (hav : Strategy.avoidableRectangles ∉ sts) :
    ∃ r, s.solve fuel sts = .ok (.error r) := by
  obtain ⟨r, hr | hr⟩ := C41_solve (.sudoku hg hs) hf sts hav
  · have := (C63_agree g hg hs hf sts r hr).1
    rw [hu] at this
    cases this
  · exact ⟨r, hr⟩

/-! ## Looking at a contradictory sudoku -/

set_option maxRecDepth 100000

private theorem gives {g : Grid} (hg : WellFormed g) {calls : List Call} {sts : List Strategy}
    {p : (Bool × Solver × Grid) × Bool × Grid × Deductions → Bool}
    (h : claims (start g calls) (fun y => claims (result sts y.2.1) (fun r => p (y, r))) = true) :
    ∃ b s g' r, Reaches b s g' (fun _ _ => False) ∧ Returned 1000 sts s r ∧
      ∃ ok, (ok = true → s.solve 1000 sts = .ok (.ok r)) ∧ (ok = false → s.solve 1000 sts = .ok (.error r)) ∧
        p ((b, s, g'), ok, r) = true := by
  obtain ⟨⟨b, s, g'⟩, h1, h2⟩ := claims_spec h
  obtain ⟨⟨ok, r⟩, h3, h4⟩ := claims_spec h2
  refine ⟨b, s, g', r, start_reaches hg h1, ?_, ok, ?_, ?_, h4⟩
  · cases ok with
    | true => exact Or.inl (result_ok h3)
    | false => exact Or.inr (result_err h3)
  · rintro rfl; exact result_ok h3
  · rintro rfl; exact result_err h3

/-- C48, C63: a sudoku that the strategies solve. -/
example : WellFormed Ex.puzzle ∧ ∃ s r, Solver.fromSudoku Ex.puzzle = .ok s ∧
    s.solve 1000 [.nakedSingles, .hiddenSingles] = .ok (.ok r) ∧ r.1 = Ex.solved := by
  have hw : WellFormed Ex.puzzle := by decide +kernel
  refine ⟨hw, ?_⟩
  obtain ⟨s, hs⟩ := C41_constructors.1 Ex.puzzle hw
  have h : claims (start Ex.puzzle []) (fun y => claims (result [.nakedSingles, .hiddenSingles] y.2.1)
      (fun r => r.1 && decide (r.2.1 = Ex.solved))) = true := by decide +kernel
  obtain ⟨y, h1, h2⟩ := claims_spec h
  obtain ⟨⟨ok, r⟩, h3, h4⟩ := claims_spec h2
  unfold start at h1
  rw [hs] at h1
  cases h1
  simp only [Bool.and_eq_true, decide_eq_true_eq] at h4
  obtain ⟨rfl, h5⟩ := h4
  exact ⟨s, r, hs, result_ok h3, h5⟩

/-- C63: a sudoku that is not uniquely solvable. -/
example : Sudoku.isUniquelySolvable 1000 (Vector.replicate 81 0) = .ok false := by decide +kernel

/-- Two times 1 in the first row. -/
def twoOnes : Grid := #v[
  1,2,3,4,5,6,7,8,1, 0,0,0,0,0,0,0,0,0, 0,0,0,0,0,0,0,0,0,
  0,0,0,0,0,0,0,0,0, 2,3,4,5,6,0,0,0,0, 0,0,0,0,0,0,0,0,0,
  0,0,0,0,0,0,0,0,0, 0,0,0,0,0,0,0,0,0, 0,0,0,0,0,0,0,0,0]

/-- **C48** is false after `cell_state` was called on a contradictory sudoku: `solve` returns a grid in which a given digit is
replaced by another one. -/
theorem C48_overwritten_false : ∃ s g r, Reaches true s g (fun _ _ => False) ∧
    Returned 1000 [.lockedCandidates, .nakedSingles] s r ∧ g[8] = 1 ∧ r.1[8] = 9 := by
  obtain ⟨b, s, g', r, h1, h2, ok, -, -, h3⟩ := gives (g := twoOnes) (calls := [.look 0])
    (sts := [.lockedCandidates, .nakedSingles])
    (p := fun x => x.1.1 && decide (x.1.2.2[8] = 1) && decide (x.2.2.1[8] = 9))
    (by decide +kernel) (by decide +kernel)
  simp only [Bool.and_eq_true, decide_eq_true_eq] at h3
  obtain ⟨⟨rfl, h4⟩, h5⟩ := h3
  exact ⟨s, g', r, h1, h2, h4, h5⟩

end Verif.Props
