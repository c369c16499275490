import Verif.Proofs.CanonFinal
import Verif.Props.Shuffle

/-!
# Property theorems about canonical forms: C24 - C29

`canonicalized fuel g` is `g.canonicalized()`.
-/
namespace Verif.Props

open Verif Sudoku Canon

/-- A completed grid is its own and only solution. -/
theorem solved_unique {g : Grid} (h : Solved g) : IsSolution g g ∧ ∀ t, IsSolution g t → t = g := by
  refine ⟨⟨h, fun c _ => rfl⟩, ?_⟩
  intro t ht
  apply Vector.ext
  intro i hi
  exact ht.2 ⟨i, hi⟩ (ne_zero_of_one_le (h.1 ⟨i, hi⟩).1)

theorem solved_clueCount {g : Grid} (h : Solved g) : clueCount g = 81 := by
  unfold clueCount
  rw [List.countP_eq_length.mpr]
  · simp
  · intro c _
    exact decide_eq_true (ne_zero_of_one_le (h.1 c).1)

/-- What `canonicalized` computes for a sudoku with a known unique solution. -/
theorem canonicalized_of_solution {g s : Grid} (hg : WellFormed g) (hs : IsSolution g s)
    (hu : ∀ t, IsSolution g t → t = s) (h17 : 17 ≤ clueCount g) :
    ∃ (k : Choices) (n : Nat), (∀ fuel, 800 ≤ fuel →
        canonicalized fuel g = .ok (some (act k.sym g, n)) ∧
        canonicalized fuel s = .ok (some (act k.sym s, n))) ∧
      (∀ U : Sym, LexLe (act k.sym s) (act U s)) ∧ n = Set.ncard {T : Sym | act T s = s} := by
  obtain ⟨k, n, hk, hmin, hn⟩ := findCanonical_eq hs.1
  refine ⟨k, n, ?_, ?_, ?_⟩
  · intro fuel hf
    have hsol : (if isSolved g then Res.ok (some g) else solution fuel g) = .ok (some s) := by
      by_cases h : isSolved g = true
      · rw [if_pos h]
        rw [(solved_unique ((C08_is_solved g).mp h)).2 s hs]
      · rw [if_neg h]
        obtain ⟨r, hr, hr'⟩ := solution_spec g hg fuel hf
        rw [hr, (hr' s).mpr ⟨h17, hs, hu⟩]
    have hsol' : (if isSolved s then Res.ok (some s) else solution fuel s) = .ok (some s) :=
      if_pos ((C08_is_solved s).mpr hs.1)
    constructor
    · unfold canonicalized
      rw [hsol, Res.ok_bind]
      simp only
      rw [hk, Res.ok_bind]
      simp only
      rw [apply_eq k g hg, Res.ok_bind]
    · unfold canonicalized
      rw [hsol', Res.ok_bind]
      simp only
      rw [hk, Res.ok_bind]
      simp only
      rw [apply_eq k s (wellFormed_of_solved hs.1), Res.ok_bind]
  · intro U
    rw [gnum_le_iff]
    exact hmin U
  · rw [hn, ncard_fixing]

theorem canonicalized_none {g : Grid} (hg : WellFormed g) (h : ¬ (17 ≤ clueCount g ∧ UniquelySolvable g))
    {fuel : Nat} (hf : 800 ≤ fuel) : canonicalized fuel g = .ok none := by
  have hns : ¬ isSolved g = true := by
    intro hs
    have hs := (C08_is_solved g).mp hs
    exact h ⟨by rw [solved_clueCount hs]; decide, g, solved_unique hs⟩
  obtain ⟨r, hr, hr'⟩ := solution_spec g hg fuel hf
  cases r with
  | none =>
    unfold canonicalized
    rw [if_neg hns, hr, Res.ok_bind]
  | some t =>
    obtain ⟨h1, h2, h3⟩ := (hr' t).mp rfl
    exact absurd ⟨h1, t, h2, h3⟩ h

/-- The cases in which `canonicalized` returns something. -/
theorem canonicalized_some {g q : Grid} {n fuel : Nat} (hg : WellFormed g) (hf : 800 ≤ fuel)
    (h : canonicalized fuel g = .ok (some (q, n))) :
    ∃ (s : Grid) (k : Choices), IsSolution g s ∧ (∀ t, IsSolution g t → t = s) ∧ 17 ≤ clueCount g ∧
      q = act k.sym g ∧ (∀ fuel, 800 ≤ fuel → canonicalized fuel s = .ok (some (act k.sym s, n))) ∧
      (∀ U : Sym, LexLe (act k.sym s) (act U s)) ∧ n = Set.ncard {T : Sym | act T s = s} := by
  by_cases hc : 17 ≤ clueCount g ∧ UniquelySolvable g
  · obtain ⟨h17, s, hs, hu⟩ := hc
    obtain ⟨k, m, hk, hmin, hn⟩ := canonicalized_of_solution hg hs hu h17
    have h1 := (hk fuel hf).1
    rw [h] at h1
    simp only [Res.ok.injEq, Option.some.injEq, Prod.mk.injEq] at h1
    obtain ⟨rfl, rfl⟩ := h1
    exact ⟨s, k, hs, hu, h17, rfl, fun fuel hf => (hk fuel hf).2, hmin, hn⟩
  · rw [canonicalized_none hg hc hf] at h
    simp at h

instance : Finite Sym := Nat.finite_of_card_ne_zero (by rw [card_sym]; decide)

/-- C24.  `canonicalized` never panics.  It returns `None` unless the sudoku has exactly one solution.  It returns
something for every completed grid and for every uniquely solvable sudoku with at least 17 clues (the same cases in
which `solution` returns something).  The returned sudoku is equivalent to the input: it is the input with digits,
rows, columns, bands and stacks permuted and possibly transposed. -/
theorem C24_canonicalized (g : Grid) (hg : WellFormed g) (fuel : Nat) (hf : 800 ≤ fuel) :
    ∃ r : Option (Grid × Nat), canonicalized fuel g = .ok r ∧
      (¬ UniquelySolvable g → r = none) ∧
      (Solved g → r ≠ none) ∧
      (UniquelySolvable g → 17 ≤ clueCount g → r ≠ none) ∧
      (∀ q n, r = some (q, n) → Equivalent g q ∧ WellFormed q) := by
  by_cases hc : 17 ≤ clueCount g ∧ UniquelySolvable g
  · obtain ⟨h17, s, hs, hu⟩ := hc
    obtain ⟨k, n, hk, _⟩ := canonicalized_of_solution hg hs hu h17
    refine ⟨_, (hk fuel hf).1, fun h => absurd ⟨s, hs, hu⟩ h, fun _ => by simp, fun _ _ => by simp, ?_⟩
    rintro q m e
    simp only [Option.some.injEq, Prod.mk.injEq] at e
    obtain ⟨rfl, rfl⟩ := e
    exact ⟨⟨k.sym, rfl⟩, wellFormed_act _ hg⟩
  · refine ⟨none, canonicalized_none hg hc hf, fun _ => rfl, fun h => ?_, fun h h' => absurd ⟨h', h⟩ hc, by simp⟩
    exact absurd ⟨by rw [solved_clueCount h]; decide, g, solved_unique h⟩ hc

/-- Non-vacuity: a completed grid, and boards with no and with several solutions. -/
example : WellFormed Ex.solved ∧ Solved Ex.solved ∧ WellFormed Ex.contradictory ∧ WellFormed Ex.empty ∧
    ¬ UniquelySolvable Ex.contradictory := by
  refine ⟨by decide +kernel, by decide +kernel, by decide +kernel, by decide +kernel, ?_⟩
  rintro ⟨t, ht, _⟩
  have h0 := ht.2 0 (by decide +kernel)
  have h1 := ht.2 1 (by decide +kernel)
  have e : Ex.contradictory[(0 : Fin 81)] = Ex.contradictory[(1 : Fin 81)] := by decide +kernel
  exact ht.1.2 0 1 (by decide) (Or.inl rfl) (by rw [h0, h1, e])

/-- C25.  The canonical form of a completed grid can be obtained from it by a transformation, and it is
lexicographically (row by row) at most every grid that can be obtained from it. -/
theorem C25_lexicographic_minimum (g : Grid) (hg : Solved g) (fuel : Nat) (hf : 800 ≤ fuel) :
    ∃ q n, canonicalized fuel g = .ok (some (q, n)) ∧ Equivalent g q ∧ ∀ T : Sym, LexLe q (act T g) := by
  obtain ⟨hs, hu⟩ := solved_unique hg
  obtain ⟨k, n, hk, hmin, _⟩ :=
    canonicalized_of_solution (wellFormed_of_solved hg) hs hu (by rw [solved_clueCount hg]; decide)
  exact ⟨_, n, (hk fuel hf).1, ⟨k.sym, rfl⟩, hmin⟩

/-- Non-vacuity: `Ex.solved` is completed and is not its own canonical form (it does not start with `1`). -/
example : Solved Ex.solved ∧ Ex.solved[(0 : Fin 81)] = 4 := ⟨by decide +kernel, by decide +kernel⟩

theorem lexLe_antisymm {a b : Grid} (h1 : LexLe a b) (h2 : LexLe b a) : a = b := by
  rw [gnum_le_iff] at h1 h2
  exact gnum_inj (by omega)

/-- C26.  Two completed grids have the same canonical form exactly if one can be transformed into the other. -/
theorem C26_decides_equivalence (g h : Grid) (hg : Solved g) (hh : Solved h) (fuel : Nat) (hf : 800 ≤ fuel) :
    ∃ q n q' n', canonicalized fuel g = .ok (some (q, n)) ∧ canonicalized fuel h = .ok (some (q', n')) ∧
      (q = q' ↔ Equivalent g h) := by
  obtain ⟨q, n, h1, ⟨T, hT⟩, hmin⟩ := C25_lexicographic_minimum g hg fuel hf
  obtain ⟨q', n', h1', ⟨T', hT'⟩, hmin'⟩ := C25_lexicographic_minimum h hh fuel hf
  refine ⟨q, n, q', n', h1, h1', ?_, ?_⟩
  · rintro rfl
    exact Equivalent.trans ⟨T, hT⟩ (Equivalent.symm ⟨T', hT'⟩)
  · rintro ⟨U, rfl⟩
    apply lexLe_antisymm
    · rw [← hT', ← act_after]
      exact hmin _
    · have := hmin' (T.after U.inv)
      rw [act_after, act_inv_act, hT] at this
      exact this

/-- C26.  Canonicalizing the canonical form of a completed grid changes nothing; the count stays the same too. -/
theorem C26_idempotent (g q : Grid) (n : Nat) (hg : Solved g) (fuel : Nat) (hf : 800 ≤ fuel)
    (h : canonicalized fuel g = .ok (some (q, n))) : Solved q ∧ canonicalized fuel q = .ok (some (q, n)) := by
  obtain ⟨s, k, hs, hu, _, rfl, hk, hmin, hn⟩ := canonicalized_some (wellFormed_of_solved hg) hf h
  have hsg := (solved_unique hg).2 s hs
  subst hsg
  have hq : Solved (act k.sym s) := solved_act_of _ hg
  obtain ⟨hs', hu'⟩ := solved_unique hq
  obtain ⟨k', n', hk', hmin', hn'⟩ :=
    canonicalized_of_solution (wellFormed_of_solved hq) hs' hu' (by rw [solved_clueCount hq]; decide)
  have e : act k'.sym (act k.sym s) = act k.sym s := by
    apply lexLe_antisymm
    · have := hmin' Sym.one
      rwa [act_one] at this
    · rw [← act_after]
      exact hmin _
  have en : n' = n := by
    rw [hn', hn, ← ncard_fixing s k.sym]
    have hset : {T : Sym | act T s = act k.sym s} =
        (fun T => T.after k.sym) '' {T : Sym | act T (act k.sym s) = act k.sym s} := by
      ext T
      simp only [Set.mem_setOf_eq, Set.mem_image]
      constructor
      · intro hT
        refine ⟨T.after k.sym.inv, ?_, ?_⟩
        · rw [act_after, act_inv_act, hT]
        · rw [Sym.after_assoc, Sym.inv_after, Sym.after_one]
      · rintro ⟨U, hU, rfl⟩
        rw [act_after, hU]
    rw [hset]
    symm
    apply Set.ncard_image_of_injective
    intro U V e
    have := congrArg (fun X => X.after k.sym.inv) e
    simpa only [Sym.after_assoc, Sym.after_inv, Sym.after_one] using this
  refine ⟨hq, ?_⟩
  have := (hk' fuel hf).1
  rw [e, en] at this
  exact this

/-- Non-vacuity: two different completed grids, equivalent by a transposition. -/
example : Solved Ex.solved ∧ Solved (act ⟨true, 1, 1, 1, KeepsChutes.one, KeepsChutes.one⟩ Ex.solved) ∧
    act ⟨true, 1, 1, 1, KeepsChutes.one, KeepsChutes.one⟩ Ex.solved ≠ Ex.solved :=
  ⟨by decide +kernel, by decide +kernel, by decide +kernel⟩

/-- C27.  For a completed grid the returned count is the number of transformations (out of all `2 * 9! * 6^8`, see
`C23_number_of_transformations`) that map the grid to itself; it is at least 1. -/
theorem C27_automorphisms (g : Grid) (hg : Solved g) (fuel : Nat) (hf : 800 ≤ fuel) :
    ∃ q n, canonicalized fuel g = .ok (some (q, n)) ∧ n = Set.ncard {T : Sym | act T g = g} ∧ 1 ≤ n := by
  obtain ⟨hs, hu⟩ := solved_unique hg
  obtain ⟨k, n, hk, _, hn⟩ :=
    canonicalized_of_solution (wellFormed_of_solved hg) hs hu (by rw [solved_clueCount hg]; decide)
  refine ⟨_, n, (hk fuel hf).1, hn, ?_⟩
  rw [hn]
  exact (Set.ncard_pos (Set.toFinite _)).mpr ⟨Sym.one, act_one g⟩

/-- C28.  If `canonicalized` returns `(q, n)` for `p`, then `p` and `q` are uniquely solvable and the canonical form of
the solution of `p`, with the same count, is the solution of `q`. -/
theorem C28_commutes_with_solving (p q : Grid) (n : Nat) (hp : WellFormed p) (fuel : Nat) (hf : 800 ≤ fuel)
    (h : canonicalized fuel p = .ok (some (q, n))) :
    ∃ s t, solution fuel p = .ok (some s) ∧ IsSolution p s ∧ (∀ s', IsSolution p s' → s' = s) ∧
      solution fuel q = .ok (some t) ∧ IsSolution q t ∧ (∀ t', IsSolution q t' → t' = t) ∧
      canonicalized fuel s = .ok (some (t, n)) := by
  obtain ⟨s, k, hs, hu, h17, rfl, hk, _, _⟩ := canonicalized_some hp hf h
  have ht : IsSolution (act k.sym p) (act k.sym s) := (isSolution_act _ _ _).mpr hs
  have htu : ∀ t', IsSolution (act k.sym p) t' → t' = act k.sym s := by
    intro t' h'
    rw [← act_act_inv k.sym t'] at h' ⊢
    rw [hu _ ((isSolution_act _ _ _).mp h')]
  obtain ⟨r, hr, hr'⟩ := solution_spec p hp fuel hf
  obtain ⟨r2, hr2, hr2'⟩ := solution_spec (act k.sym p) (wellFormed_act _ hp) fuel hf
  refine ⟨s, act k.sym s, ?_, hs, hu, ?_, ht, htu, hk fuel hf⟩
  · rw [hr, (hr' s).mpr ⟨h17, hs, hu⟩]
  · rw [hr2, (hr2' _).mpr ⟨by rw [clueCount_act]; exact h17, ht, htu⟩]

/-- Every digit occurs in every row of a completed grid. -/
theorem solved_exists_col {s : Grid} (hs : Solved s) (r : Fin 9) {d : UInt8} (hd : 1 ≤ d ∧ d ≤ 9) :
    ∃ c, cellRC s r c = d := by
  rcases digit_cases d with rfl | ⟨e, rfl⟩ | h'
  · exact absurd hd.1 (by decide)
  · refine ⟨labelOf (cellRC s r) e, ?_⟩
    rw [labelOf_inv (fun c c' h => hs.row_inj h) (hs.rc_range r)]
    simp
  · have := UInt8.le_iff_toNat_le.mp hd.2
    have e : (9 : UInt8).toNat = 9 := rfl
    omega

/-- A completed grid with one cell emptied has one solution. -/
theorem unique_of_one_missing {s : Grid} (hs : Solved s) (i : Fin 81) :
    IsSolution (s.set i 0) s ∧ ∀ t, IsSolution (s.set i 0) t → t = s := by
  have hset : ∀ j : Fin 81, j ≠ i → (s.set i.val 0)[j] = s[j] := by
    intro j hj
    show (s.set i.val 0)[j.val] = s[j.val]
    rw [Vector.getElem_set_ne]
    intro h; exact hj (Fin.ext h.symm)
  have hi : (s.set i.val 0)[i] = 0 := by
    show (s.set i.val 0)[i.val] = 0
    rw [Vector.getElem_set_self]
  refine ⟨⟨hs, ?_⟩, ?_⟩
  · intro j hj
    by_cases h : j = i
    · subst h; exact absurd hi hj
    · rw [hset j h]
  · intro t ht
    have hrest : ∀ j : Fin 81, j ≠ i → t[j] = s[j] := by
      intro j hj
      rw [ht.2 j (by rw [hset j hj]; exact ne_zero_of_one_le (hs.1 j).1), hset j hj]
    have hti : t[i] = s[i] := by
      obtain ⟨c, hc⟩ := solved_exists_col hs ⟨i.val / 9, by omega⟩ (ht.1.1 i)
      let j : Fin 81 := ⟨9 * (i.val / 9) + c.val, by omega⟩
      have hj : s[j] = t[i] := hc
      by_cases h : j = i
      · rw [← hj]; exact (congrArg (fun x : Fin 81 => s[x]) h).symm ▸ rfl
      · exfalso
        refine ht.1.2 j i h (Or.inl ?_) (by rw [hrest j h, hj])
        show (9 * (i.val / 9) + c.val) / 9 = i.val / 9
        omega
    apply Vector.ext
    intro j hj
    by_cases h : (⟨j, hj⟩ : Fin 81) = i
    · have := hti; rw [← h] at this; exact this
    · exact hrest ⟨j, hj⟩ h

theorem one_missing_wellFormed {s : Grid} (hs : Solved s) (i : Fin 81) : WellFormed (s.set i 0) := by
  intro j
  show (s.set i.val 0)[j.val] ≤ 9
  rw [Vector.getElem_set]
  split
  · decide
  · exact (hs.1 j).2

/-- Non-vacuity: `Ex.solved` without its first cell is not completed and satisfies the hypotheses. -/
example : ∃ p q n, WellFormed p ∧ ¬ Solved p ∧ canonicalized 800 p = .ok (some (q, n)) := by
  have hs : Solved Ex.solved := by decide +kernel
  have hp := one_missing_wellFormed hs 0
  obtain ⟨h1, hu⟩ := unique_of_one_missing hs 0
  obtain ⟨k, n, hk, _⟩ := canonicalized_of_solution hp h1 hu (by decide +kernel)
  exact ⟨_, _, n, hp, by decide +kernel, (hk 800 (Nat.le_refl _)).1⟩

/-! ## C29: unsolved puzzles -/

/-- A completed grid with many automorphisms. -/
def patternGrid : Grid := #v[
  1,2,3,4,5,6,7,8,9, 4,5,6,7,8,9,1,2,3, 7,8,9,1,2,3,4,5,6,
  2,3,1,5,6,4,8,9,7, 5,6,4,8,9,7,2,3,1, 8,9,7,2,3,1,5,6,4,
  3,1,2,6,4,5,9,7,8, 6,4,5,9,7,8,3,1,2, 9,7,8,3,1,2,6,4,5]

/-- One of its automorphisms: the stacks and the rows of every band rotate. -/
def rotation : Sym where
  transposed := false
  rows := lines 1 (fun _ => perm3 2 1)
  cols := lines (perm3 1 1) (fun _ => 1)
  digits := 1
  rows_ok := lines_keeps _ _
  cols_ok := lines_keeps _ _

/-- The completed grid without its first cell. -/
def pattern0 : Grid := patternGrid.set 0 0
/-- The completed grid without the image of its first cell under the automorphism. -/
def pattern15 : Grid := patternGrid.set 15 0

theorem pattern_facts : act rotation pattern0 = pattern15 ∧ 17 ≤ clueCount pattern0 ∧ 17 ≤ clueCount pattern15 ∧
    isSolved pattern0 = false ∧ isSolved pattern15 = false ∧ pattern0 ≠ pattern15 := by decide +kernel

/-- C29 is false as documented: there are two uniquely solvable puzzles that can be transformed into each other but
have different canonical forms.  (Canonical forms are only invariant up to the automorphisms of the solution.) -/
theorem C29_unsolved_forms_differ (fuel : Nat) (hf : 800 ≤ fuel) :
    ∃ p p' q q' n n', WellFormed p ∧ WellFormed p' ∧ UniquelySolvable p ∧ UniquelySolvable p' ∧
      Equivalent p p' ∧ canonicalized fuel p = .ok (some (q, n)) ∧ canonicalized fuel p' = .ok (some (q', n')) ∧
      q ≠ q' := by
  have hs : Solved patternGrid := by decide +kernel
  obtain ⟨h1, hu1⟩ := unique_of_one_missing hs 0
  obtain ⟨h2, hu2⟩ := unique_of_one_missing hs 15
  have w1 := one_missing_wellFormed hs 0
  have w2 := one_missing_wellFormed hs 15
  obtain ⟨k, n, hk, hmin, hn⟩ := findCanonical_eq hs
  have key : ∀ p, WellFormed p → 17 ≤ clueCount p → isSolved p = false → IsSolution p patternGrid →
      (∀ t, IsSolution p t → t = patternGrid) → canonicalized fuel p = .ok (some (act k.sym p, n)) := by
    intro p hp h17 hns hsol hu
    obtain ⟨r, hr, hr'⟩ := solution_spec p hp fuel hf
    unfold canonicalized
    rw [hns, if_neg (by simp), hr, (hr' patternGrid).mpr ⟨h17, hsol, hu⟩, Res.ok_bind]
    simp only
    rw [hk, Res.ok_bind]
    simp only
    rw [apply_eq k p hp, Res.ok_bind]
  obtain ⟨f1, f2, f3, f4, f5, f6⟩ := pattern_facts
  refine ⟨pattern0, pattern15, act k.sym pattern0, act k.sym pattern15,
    n, n, w1, w2, ⟨_, h1, hu1⟩, ⟨_, h2, hu2⟩, ⟨rotation, f1⟩, key _ w1 f2 f4 h1 hu1,
    key _ w2 f3 f5 h2 hu2, fun e => f6 (act_injective k.sym e)⟩

/-- C29, the part that holds, one direction: sudokus with equal canonical forms can be transformed into each other.
Missing: the converse, which is false (`C29_unsolved_forms_differ`) unless the solution has no automorphisms
(`C29_rigid_partial`) or the sudokus are completed (`C26_decides_equivalence`). -/
theorem C29_equal_forms_partial (p p' q : Grid) (n n' : Nat) (hp : WellFormed p) (hp' : WellFormed p') (fuel : Nat)
    (hf : 800 ≤ fuel) (h : canonicalized fuel p = .ok (some (q, n)))
    (h' : canonicalized fuel p' = .ok (some (q, n'))) : Equivalent p p' := by
  obtain ⟨s, k, _, _, _, e, _⟩ := canonicalized_some hp hf h
  obtain ⟨s', k', _, _, _, e', _⟩ := canonicalized_some hp' hf h'
  exact Equivalent.trans ⟨k.sym, e.symm⟩ (Equivalent.symm ⟨k'.sym, e'.symm⟩)

/-- C29, the part that holds: for sudokus whose solution has only the trivial automorphism (count 1), equal canonical
forms and equivalence are the same.  Missing: sudokus with a count above 1, for which this fails. -/
theorem C29_rigid_partial (p p' q q' : Grid) (n' : Nat) (hp : WellFormed p) (hp' : WellFormed p') (fuel : Nat)
    (hf : 800 ≤ fuel) (h : canonicalized fuel p = .ok (some (q, 1)))
    (h' : canonicalized fuel p' = .ok (some (q', n'))) : q = q' ↔ Equivalent p p' := by
  constructor
  · rintro rfl
    exact C29_equal_forms_partial p p' q 1 n' hp hp' fuel hf h h'
  · rintro ⟨U, rfl⟩
    obtain ⟨s, k, hs, hu, _, rfl, hk, hmin, hn⟩ := canonicalized_some hp hf h
    obtain ⟨s', k', hs', hu', _, rfl, hk', hmin', hn'⟩ := canonicalized_some hp' hf h'
    have es : act U s = s' := hu' _ ((isSolution_act _ _ _).mpr hs)
    subst es
    -- both lead to the canonical form of the solution
    have e : act (k'.sym.after U) s = act k.sym s := by
      apply lexLe_antisymm
      · have := hmin' (k.sym.after U.inv)
        rw [act_after, act_inv_act] at this
        rw [act_after]
        exact this
      · exact hmin _
    rw [← ncard_fixing s k.sym] at hn
    obtain ⟨T, hT⟩ := Set.ncard_eq_one.mp hn.symm
    have m1 : k.sym ∈ {T : Sym | act T s = act k.sym s} := rfl
    have m2 : k'.sym.after U ∈ {T : Sym | act T s = act k.sym s} := e
    rw [hT, Set.mem_singleton_iff] at m1 m2
    rw [← act_after, m2, m1]

end Verif.Props
