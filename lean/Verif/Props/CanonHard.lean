import Verif.Props.Canonical
import Verif.Props.Moved

/-!
# C78: solving sudokus with the same canonical form
-/
namespace Verif.Props

open Verif Verif.Strat Verif.Canon

variable {s s' : Solver} {g g' : Grid} {fuel fuel' : Nat}

/-- What C67 says of the transformed sudoku, for sudokus without further exclusions. -/
private theorem solved_transformed (T : Sym) (hg : WellFormed g) (hs : Solver.fromSudoku g = .ok s)
    (hs' : Solver.fromSudoku (act T g) = .ok s') (hf : 1000 ≤ fuel) (hf' : 1000 ≤ fuel')
    (first : Strategy) (rest : List Strategy) (hw : WithSimpler (first :: rest)) (hn : .nakedSingles ∈ rest)
    (r r' : Grid × Deductions)
    (hr : Returned fuel (first :: rest) s r) (hr' : Returned fuel' (first :: rest) s' r')
    (t : Grid) (ht : IsSolution g t) :
    r'.1 = act T r.1 ∧ clueCount r'.1 = clueCount r.1 ∧
    (s.solve fuel (first :: rest) = .ok (.ok r) ↔ s'.solve fuel' (first :: rest) = .ok (.ok r')) := by
  have h' : Reaches false s' (act T g) (moved T fun _ _ => False) := Reaches.sudoku (wellFormed_act T hg) hs'
  obtain ⟨a1, -, a3⟩ := C67_transformed T (Reaches.sudoku hg hs) h' hf hf' first first rest rest (fun _ => Iff.rfl) hw hn hn
    r r' hr hr' t ⟨ht, fun _ _ hx => hx.elim⟩
  exact ⟨a1, by rw [a1]; exact clueCount_act T r.1, a3⟩

private theorem canonicalized_equivalent (hg : WellFormed g) {cfuel n : Nat} (hcf : 800 ≤ cfuel) {q : Grid}
    (hq : canonicalized cfuel g = .ok (some (q, n))) : Equivalent g q ∧ ∃ t, IsSolution g t := by
  obtain ⟨o, h1, h2, -, -, h3⟩ := C24_canonicalized g hg cfuel hcf
  rw [hq] at h1
  obtain rfl : some (q, n) = o := by simpa using h1
  refine ⟨(h3 q n rfl).1, ?_⟩
  by_cases hu : UniquelySolvable g
  · obtain ⟨t, ht, -⟩ := hu
    exact ⟨t, ht⟩
  · exact absurd (h2 hu) (by simp)

/-- **C78**: the canonical form is as hard as the sudoku: the transformation that gives the canonical form also takes what
`solve` makes of the sudoku to what it makes of the canonical form, and both are reported as solved or neither.  The
list of strategies contains both kinds of singles (`NakedSingles` not only in the first place) and the simpler variants
of its strategies. -/
theorem C78_canonicalized (hg : WellFormed g) (cfuel : Nat) (hcf : 800 ≤ cfuel) (q : Grid) (n : Nat)
    (hq : canonicalized cfuel g = .ok (some (q, n)))
    (hs : Solver.fromSudoku g = .ok s) (hs' : Solver.fromSudoku q = .ok s') (hf : 1000 ≤ fuel) (hf' : 1000 ≤ fuel')
    (first : Strategy) (rest : List Strategy) (hw : WithSimpler (first :: rest)) (hn : .nakedSingles ∈ rest)
    (r r' : Grid × Deductions)
    (hr : Returned fuel (first :: rest) s r) (hr' : Returned fuel' (first :: rest) s' r') :
    (∃ T, q = act T g ∧ r'.1 = act T r.1) ∧ clueCount r'.1 = clueCount r.1 ∧
    (s.solve fuel (first :: rest) = .ok (.ok r) ↔ s'.solve fuel' (first :: rest) = .ok (.ok r')) := by
  obtain ⟨⟨T, rfl⟩, t, ht⟩ := canonicalized_equivalent hg hcf hq
  obtain ⟨a1, a2, a3⟩ := solved_transformed T hg hs hs' hf hf' first rest hw hn r r' hr hr' t ht
  exact ⟨⟨T, rfl, a1⟩, a2, a3⟩

/-- **C78**: two sudokus with the same canonical form are equally hard: `solve` fills the same number of cells of both, and
reports both as solved or neither. -/
theorem C78_same_form (hg : WellFormed g) (hg' : WellFormed g') (cfuel cfuel' : Nat) (hcf : 800 ≤ cfuel)
    (hcf' : 800 ≤ cfuel') (q : Grid) (n n' : Nat) (hq : canonicalized cfuel g = .ok (some (q, n)))
    (hq' : canonicalized cfuel' g' = .ok (some (q, n')))
    (hs : Solver.fromSudoku g = .ok s) (hs' : Solver.fromSudoku g' = .ok s') (hf : 1000 ≤ fuel) (hf' : 1000 ≤ fuel')
    (first : Strategy) (rest : List Strategy) (hw : WithSimpler (first :: rest)) (hn : .nakedSingles ∈ rest)
    (r r' : Grid × Deductions)
    (hr : Returned fuel (first :: rest) s r) (hr' : Returned fuel' (first :: rest) s' r') :
    (∃ T, g' = act T g ∧ r'.1 = act T r.1) ∧ clueCount r'.1 = clueCount r.1 ∧
    (s.solve fuel (first :: rest) = .ok (.ok r) ↔ s'.solve fuel' (first :: rest) = .ok (.ok r')) := by
  obtain ⟨e, t, ht⟩ := canonicalized_equivalent hg hcf hq
  obtain ⟨T, he⟩ := e.trans (canonicalized_equivalent hg' hcf' hq').1.symm
  rw [← he] at hs'
  obtain ⟨a1, a2, a3⟩ := solved_transformed T hg hs hs' hf hf' first rest hw hn r r' hr hr' t ht
  exact ⟨⟨T, he.symm, a1⟩, a2, a3⟩

/-- C78: for a sudoku that is not completed. -/
example : ∃ g q n s s' r r', WellFormed g ∧ ¬ Solved g ∧ canonicalized 800 g = .ok (some (q, n)) ∧
    Solver.fromSudoku g = .ok s ∧ Solver.fromSudoku q = .ok s' ∧
    Returned 1000 [.hiddenSingles, .nakedSingles, .lockedCandidates] s r ∧
    Returned 1000 [.hiddenSingles, .nakedSingles, .lockedCandidates] s' r' ∧ clueCount r'.1 = clueCount r.1 := by
  have hs : Solved Ex.solved := by decide +kernel
  have hp := one_missing_wellFormed hs 0
  obtain ⟨h1, hu⟩ := unique_of_one_missing hs 0
  obtain ⟨k, n, hk, _⟩ := canonicalized_of_solution hp h1 hu (by decide +kernel)
  have hq := (hk 800 (Nat.le_refl _)).1
  obtain ⟨s, hs1⟩ := C41_constructors.1 _ hp
  obtain ⟨s', hs2⟩ := C41_constructors.1 _ (wellFormed_act k.sym hp)
  obtain ⟨r, hr⟩ := C41_solve (.sudoku hp hs1) (Nat.le_refl 1000) [.hiddenSingles, .nakedSingles, .lockedCandidates]
    (by decide)
  obtain ⟨r', hr'⟩ := C41_solve (.sudoku (wellFormed_act k.sym hp) hs2) (Nat.le_refl 1000)
    [.hiddenSingles, .nakedSingles, .lockedCandidates] (by decide)
  exact ⟨_, _, n, s, s', r, r', hp, by decide +kernel, hq, hs1, hs2, hr, hr', (C78_canonicalized hp 800 (Nat.le_refl _) _ n
    hq hs1 hs2 (Nat.le_refl _) (Nat.le_refl _) _ _ (by decide) (by decide) r r' hr hr').2.1⟩

end Verif.Props
