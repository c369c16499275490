import Verif.Props.Order
import Verif.Props.Shuffle

/-!
# C67: solving transformed and shuffled sudokus

`Order` is imported for C65 and C66.
-/
namespace Verif.Props

open Verif Verif.Strat Verif.Canon

variable {looked looked' : Bool} {s s' : Solver} {g : Grid} {X : Fin 81 → Digit → Prop} {fuel fuel' : Nat}

private theorem at_eq {q : Grid} {c c' : Fin 81} (h : c = c') (hc : q[c] ≠ 0) : q[c'] ≠ 0 := by subst h; exact hc

private theorem moved_half (T : Sym) (h : Reaches looked s g X) (h' : Reaches looked' s' (act T g) (moved T X))
    (hf : 1000 ≤ fuel) (hf' : 1000 ≤ fuel') (sts : List Strategy) (first : Strategy) (rest : List Strategy)
    (hsts : ∀ st ∈ sts, st ∈ first :: rest) (hw : WithSimpler (first :: rest)) (hn : .nakedSingles ∈ rest)
    (r r' : Grid × Deductions) (hr : Returned fuel (first :: rest) s r) (hr' : Returned fuel' sts s' r')
    (t : Grid) (ht : SolutionOf g X t) :
    (∀ c : Fin 81, r'.1[c] ≠ 0 → r.1[source T c] ≠ 0) ∧
    ∀ c d, Left r X (source T c) (T.digits.symm d) → Left r' (moved T X) c d := by
  obtain ⟨b1, -⟩ := C48_entered h hf _ r hr t ht
  refine nothing_new_under (Iso.ofSym T) h' h hf' hf sts first rest hsts hw hn r' r hr' hr (fun c hc => ?_)
    (fun c d hx hld => hld.2.1 hx) (act T t) t (solutionOf_act T ht) ht fun c => ?_
  · rw [act_source, Ne, relabel_eq_zero] at hc
    show r.1[source T c] ≠ 0
    rw [b1 _ hc]
    exact hc
  · rw [dig_act T ht.1.1, Iso.ofSym_cell, Iso.ofSym_digit, Equiv.symm_apply_apply]

/-- **C67**: solving commutes with the transformations that turn a sudoku into an equivalent one (exchanging rows within
a band or bands, the same for columns, transposition, relabelling): for the transformed sudoku (and exclusions) `solve`
returns the transformed grid, leaves the transformed candidates, and reports it as solved exactly if it reports the
original as solved.  The two lists contain the same strategies, both kinds of singles (`NakedSingles` not only in the
first place) and the simpler variants of their strategies. -/
theorem C67_transformed (T : Sym) (h : Reaches looked s g X) (h' : Reaches looked' s' (act T g) (moved T X))
    (hf : 1000 ≤ fuel) (hf' : 1000 ≤ fuel') (first first' : Strategy) (rest rest' : List Strategy)
    (hsts : ∀ st, st ∈ first :: rest ↔ st ∈ first' :: rest') (hw : WithSimpler (first :: rest))
    (hn : .nakedSingles ∈ rest) (hn' : .nakedSingles ∈ rest') (r r' : Grid × Deductions)
    (hr : Returned fuel (first :: rest) s r) (hr' : Returned fuel' (first' :: rest') s' r')
    (t : Grid) (ht : SolutionOf g X t) :
    r'.1 = act T r.1 ∧ (∀ c d, Left r' (moved T X) c d ↔ moved T (Left r X) c d) ∧
    (s.solve fuel (first :: rest) = .ok (.ok r) ↔ s'.solve fuel' (first' :: rest') = .ok (.ok r')) := by
  have hw' : WithSimpler (first' :: rest') :=
    ⟨(hsts _).mp hw.1, (hsts _).mp hw.2.1, fun st hst st' hst' => (hsts _).mp (hw.2.2 st ((hsts _).mpr hst) st' hst')⟩
  have ht' := solutionOf_act T ht
  obtain ⟨e1, l1⟩ := moved_half T h h' hf hf' _ first rest (fun st => (hsts st).mpr) hw hn r r' hr hr' t ht
  have hb : Reaches looked s (act T.inv (act T g)) (moved T.inv (moved T X)) := by
    rw [act_inv_act, moved_inv]
    exact h
  obtain ⟨e2, l2⟩ := moved_half T.inv h' hb hf' hf _ first' rest' (fun st => (hsts st).mp) hw' hn' r' r hr' hr
    (act T t) ht'
  rw [moved_inv] at l2
  obtain ⟨s1, -⟩ := C39_sound h hf _ r hr t ht
  obtain ⟨s1', -⟩ := C39_sound h' hf' _ r' hr' (act T t) ht'
  have e2' : ∀ c : Fin 81, r.1[source T c] ≠ 0 → r'.1[c] ≠ 0 := by
    exact fun c hc => at_eq (inv_source T c) (e2 _ hc)
  have heq : r'.1 = act T r.1 := by
    suffices h : ∀ c : Fin 81, r'.1[c] = (act T r.1)[c] from Vector.ext fun i hi => h ⟨i, hi⟩
    intro c
    rw [act_source]
    by_cases h0 : r'.1[c] = 0
    · by_cases h1 : r.1[source T c] = 0
      · rw [h0, h1, relabel_zero]
      · exact absurd h0 (e2' c h1)
    · rw [(s1' c).resolve_left h0, act_source, (s1 _).resolve_left (e1 c h0)]
  have full : ∀ {q : Grid}, Solved q → ∀ c : Fin 81, q[c] ≠ 0 := by
    intro q hq c h0
    have := (hq.1 c).1
    rw [h0] at this
    exact absurd this (by decide)
  have hx : ∀ {g : Grid} {X : Fin 81 → Digit → Prop} {t : Grid}, SolutionOf g X t → ∀ (c : Fin 81) (d : Digit),
      g[c] = d.get → ¬ X c d := fun ht c d hg hx =>
    ht.2 c d hx (by rw [ht.1.2 c (by rw [hg]; exact Digit.get_ne_zero d), hg])
  refine ⟨heq, fun c d => ⟨fun hld => ?_, l1 c d⟩, fun hok => ?_, fun hok => ?_⟩
  · have := l2 (source T c) (T.digits.symm d)
    rw [inv_source, show (T.inv.digits.symm (T.digits.symm d)) = d from T.digits.apply_symm_apply d] at this
    exact this hld
  · rcases hr' with hr' | hr'
    · exact hr'
    · obtain ⟨c, hc⟩ := C65_unfinished h' hf' first' rest' r' hr' _ ht'
      exact absurd hc (e2' c (full (C49_solved_partial h (Or.inr (Consistent.of_solution ht)) (hx ht) hf _ r hok).1.1.1 _))
  · rcases hr with hr | hr
    · exact hr
    · obtain ⟨c, hc⟩ := C65_unfinished h hf first rest r hr t ht
      have := e1 (source T.inv c)
        (full (C49_solved_partial h' (Or.inr (Consistent.of_solution ht')) (hx ht') hf' _ r' hok).1.1.1 _)
      exact absurd hc (at_eq (source_inv T c) this)

/-- **C67**: shuffling changes neither whether a sudoku can be solved with a list of strategies nor how many cells are
filled: whatever is drawn, there is a transformation that takes the sudoku to the shuffled one and what `solve` makes of
the sudoku to what it makes of the shuffled one. -/
theorem C67_shuffled (hg : WellFormed g) (d : Draws) (g' : Grid) (hsh : shuffle d g = .ok g')
    (hs : Solver.fromSudoku g = .ok s) (hs' : Solver.fromSudoku g' = .ok s') (hf : 1000 ≤ fuel) (hf' : 1000 ≤ fuel')
    (first : Strategy) (rest : List Strategy) (hw : WithSimpler (first :: rest)) (hn : .nakedSingles ∈ rest)
    (r r' : Grid × Deductions)
    (hr : Returned fuel (first :: rest) s r) (hr' : Returned fuel' (first :: rest) s' r')
    (t : Grid) (ht : IsSolution g t) :
    (∃ T, g' = act T g ∧ r'.1 = act T r.1) ∧ clueCount r'.1 = clueCount r.1 ∧
    (s.solve fuel (first :: rest) = .ok (.ok r) ↔ s'.solve fuel' (first :: rest) = .ok (.ok r')) := by
  obtain ⟨g1, T, h1, h2, h3, -⟩ := C22_shuffle g hg d 800 (Nat.le_refl _)
  rw [hsh] at h1
  obtain rfl : g' = g1 := by simpa using h1
  have h := Reaches.sudoku hg hs
  have h' : Reaches false s' (act T g) (moved T fun _ _ => False) := by
    have := Reaches.sudoku h3 hs'
    rwa [h2] at this
  obtain ⟨a1, -, a3⟩ := C67_transformed T h h' hf hf' first first rest rest (fun _ => Iff.rfl) hw hn hn r r' hr hr'
    t ⟨ht, fun _ _ hx => hx.elim⟩
  refine ⟨⟨T, h2, a1⟩, ?_, a3⟩
  rw [a1]
  exact clueCount_act T r.1

/-- C67: for the example puzzle and a draw that moves rows, columns and digits. -/
example : ∃ g' s s' r r', shuffle ⟨123456, true, 3, 4, (1, 2, 5), (0, 3, 4)⟩ ambiguous = .ok g' ∧ g' ≠ ambiguous ∧
    Solver.fromSudoku ambiguous = .ok s ∧ Solver.fromSudoku g' = .ok s' ∧
    Returned 1000 [.hiddenSingles, .nakedSingles, .lockedCandidates] s r ∧
    Returned 1000 [.hiddenSingles, .nakedSingles, .lockedCandidates] s' r' ∧ clueCount r'.1 = clueCount r.1 := by
  have hg : WellFormed ambiguous := by decide +kernel
  obtain ⟨g', T, h1, -, h3, -⟩ := C22_shuffle ambiguous hg ⟨123456, true, 3, 4, (1, 2, 5), (0, 3, 4)⟩ 800 (Nat.le_refl _)
  obtain ⟨s, hs⟩ := C41_constructors.1 ambiguous hg
  obtain ⟨s', hs'⟩ := C41_constructors.1 g' h3
  obtain ⟨r, hr⟩ := C41_solve (.sudoku hg hs) (Nat.le_refl 1000) [.hiddenSingles, .nakedSingles, .lockedCandidates] (by decide)
  obtain ⟨r', hr'⟩ := C41_solve (.sudoku h3 hs') (Nat.le_refl 1000) [.hiddenSingles, .nakedSingles, .lockedCandidates]
    (by decide)
  refine ⟨g', s, s', r, r', h1, ?_, hs, hs', hr, hr', (C67_shuffled hg _ g' h1 hs hs' (Nat.le_refl _) (Nat.le_refl _) _ _
    (by decide) (by decide) r r' hr hr' Ex.solved (by decide +kernel)).2.1⟩
  have h : (match shuffle ⟨123456, true, 3, 4, (1, 2, 5), (0, 3, 4)⟩ ambiguous with
    | .ok g' => decide (g' ≠ ambiguous) | _ => false) = true := by decide +kernel
  rw [h1] at h
  exact of_decide_eq_true h

end Verif.Props
