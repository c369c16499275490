import Verif.Props.Order
import Verif.Spec.Derivable

/-!
# C80: `solve` finds exactly what follows by its strategies
-/
namespace Verif.Props

open Verif Verif.Strat

variable {looked : Bool} {s : Solver} {g : Grid} {X : Fin 81 → Digit → Prop} {fuel : Nat}

/-- **C80**: what follows is right about every solution. -/
theorem C80_sound (sts : List Strategy) (t : Grid) (ht : SolutionOf g X t) {b : Bool} {e : Candidate}
    (h : Derivable sts g X b e) : t[e.cell] = e.digit.get ↔ b = true := by
  induction h with
  | given h => exact iff_of_true (by rw [ht.1.2 _ (by rw [h]; exact Digit.get_ne_zero _), h]) rfl
  | excluded h => exact iff_of_false (ht.2 _ _ h) (by decide)
  | entry _ _ _ hm he ihE ihR =>
    exact iff_of_true ((hm.sound (Pattern.Fit.after ht.1.1 (fun e he => (ihE e he).mpr rfl) fun e he h =>
      absurd ((ihR e he).mp h) (by decide))).1 _ he) rfl
  | removed _ _ _ hm he ihE ihR =>
    exact iff_of_false ((hm.sound (Pattern.Fit.after ht.1.1 (fun e he => (ihE e he).mpr rfl) fun e he h =>
      absurd ((ihR e he).mp h) (by decide))).2 _ he) (by decide)

/-- **C80**: for every list of strategies, what the deductions enter and exclude follows by the strategies. -/
theorem C80_only (h : Reaches looked s g X) (hf : 1000 ≤ fuel) (sts : List Strategy) (r : Grid × Deductions)
    (hr : Returned fuel sts s r) (t : Grid) (ht : SolutionOf g X t) :
    (∀ (c : Fin 81) (d : Digit), r.1[c] = d.get → Derivable sts g X true ⟨c, d⟩) ∧
    ∀ i x, r.2.get i = .ok (some x) → (∀ e, Pattern.entry x = some e → Derivable sts g X true e) ∧
      ∀ e ∈ Pattern.removed x, Derivable sts g X false e := by
  have main : ∀ i x, r.2.get i = .ok (some x) → (∀ e, Pattern.entry x = some e → Derivable sts g X true e) ∧
      ∀ e ∈ Pattern.removed x, Derivable sts g X false e := by
    intro i
    induction i using Nat.strong_induction_on with
    | _ i ih =>
      intro x hx
      obtain ⟨st, hst, -, E, R, hE, hR, hm⟩ := C47_explained h hf sts r hr t ht i x hx
      have hE' : ∀ e ∈ E, Derivable sts g X true e := by
        intro e he
        rcases hE e he with h1 | ⟨j, hj, x', h1, h2⟩
        · exact .given h1
        · exact (ih j hj x' h1).1 e h2
      have hR' : ∀ e ∈ R, Derivable sts g X false e := by
        intro e he
        rcases hR e he with h1 | ⟨j, hj, x', h1, h2⟩
        · exact .excluded h1
        · exact (ih j hj x' h1).2 e h2
      exact ⟨fun e he => .entry hE' hR' hst hm he, fun e he => .removed hE' hR' hst hm he⟩
  refine ⟨fun c d hc => ?_, main⟩
  obtain ⟨a1, -, -⟩ := C48_accounted h (Or.inr (Consistent.of_solution ht)) hf _ r hr
  obtain ⟨d', h1, h2⟩ := a1 c (by rw [hc]; exact Digit.get_ne_zero d)
  obtain rfl := Digit.get_inj (hc.symm.trans h1)
  rcases h2 with h2 | ⟨i, x, h2, h3⟩
  · exact .given h2
  · exact (main i x h2).1 _ h3

/-- When `solve` gives up, no pattern of its strategies is left. -/
private theorem nothing_matches (h : Reaches looked s g X) (hf : 1000 ≤ fuel) (first : Strategy) (rest : List Strategy)
    (hw : WithSimpler (first :: rest)) (hn : .nakedSingles ∈ rest) (r : Grid × Deductions)
    (hr : s.solve fuel (first :: rest) = .ok (.error r)) (t : Grid) (ht : SolutionOf g X t) :
    ∀ st ∈ first :: rest, ∀ x, ¬ Pattern.Matches (Left r X) st x := by
  have hex : ∀ st ∈ first :: rest, Exhausted first rest st := by
    intro st hst
    by_cases h1 : st ∈ rest
    · exact Or.inl h1
    · refine Or.inr ⟨(List.mem_cons.mp hst).resolve_right h1, ?_, Or.inl (List.ne_nil_of_mem hn)⟩
      rintro rfl
      exact h1 (by rw [(List.mem_cons.mp hst).resolve_right h1]; exact hn)
  intro st hst
  refine C50_nothing_left_partial h hf first rest r hr t ht st (hex st hst) fun st' hst' => hex st' ?_
  have key : ∀ st' ∈ simpler st, st' ∈ first :: rest := hw.2.2 st hst
  cases st <;> simp only [helpers, simpler, List.mem_cons, List.not_mem_nil, or_false, forall_eq_or_imp,
    forall_eq] at hst' key <;> try exact hst'.elim
  · subst hst'; exact hw.2.1
  · subst hst'; exact hw.2.1
  · subst hst'; exact hw.2.1
  · rcases hst' with rfl | rfl
    · exact List.mem_cons.mpr key.1
    · exact List.mem_cons.mpr key.2
  · subst hst'
    exact hw.2.2 _ (List.mem_cons.mpr key.2) _ (by simp [simpler])

/-- What follows was found. -/
private theorem found (h : Reaches looked s g X) (hf : 1000 ≤ fuel) (first : Strategy) (rest : List Strategy)
    (hw : WithSimpler (first :: rest)) (hn : .nakedSingles ∈ rest) (r : Grid × Deductions)
    (hr : Returned fuel (first :: rest) s r) (t : Grid) (ht : SolutionOf g X t) {b : Bool} {e : Candidate}
    (hd : Derivable (first :: rest) g X b e) :
    (b = true → r.1[e.cell] ≠ 0) ∧ (b = false → ¬ Left r X e.cell e.digit) := by
  obtain ⟨s1, s2⟩ := C39_sound h hf _ r hr t ht
  obtain ⟨b1, -⟩ := C48_entered h hf _ r hr t ht
  rcases hr with hr | hr
  · obtain ⟨h1, -⟩ := C49_solved_partial h (Or.inr (Consistent.of_solution ht))
      (fun c d hg hx => ht.2 c d hx (by rw [ht.1.2 c (by rw [hg]; exact Digit.get_ne_zero d), hg])) hf _ r hr
    have hfull : ∀ c : Fin 81, r.1[c] ≠ 0 := by
      intro c h0
      have := (h1.1.1.1 c).1
      rw [h0] at this
      exact absurd this (by decide)
    exact ⟨fun _ => hfull _, fun _ hld => hfull _ hld.1⟩
  · have hnone := nothing_matches h hf first rest hw hn r hr t ht
    have hlive' : Live t (fun c => r.1[c] ≠ 0) (Left r X) := by
      refine ⟨fun c d hld hne => hne hld.1, fun c h0 => ?_, fun c c' d hne hs hld hd => ?_⟩
      · have h0 : r.1[c] = 0 := by simpa using h0
        have htc := dig_spec ht.1.1 c
        refine ⟨h0, fun hx => ht.2 _ _ hx htc, fun c' hs hc' => ?_, fun i x hx hm => (s2 i x hx).2 _ hm htc⟩
        have hne0 : r.1[c'] ≠ 0 := by rw [hc']; exact Digit.get_ne_zero _
        have h1 := (s1 c').resolve_left hne0
        by_cases hcc : c' = c
        · subst hcc; exact hne0 h0
        · exact ht.1.1.2 c' _ hcc hs (by rw [← h1, hc', htc])
      · refine hld.2.2.1 c' hs ?_
        rw [(s1 _).resolve_left hne, dig_spec ht.1.1, hd]
    have step : ∀ {E R : List Candidate} {st : Strategy} {x : Deduction (List Candidate)},
        (∀ e ∈ E, Derivable (first :: rest) g X true e) → (∀ e ∈ R, Derivable (first :: rest) g X false e) →
        (∀ e ∈ E, r.1[e.cell] ≠ 0) → (∀ e ∈ R, ¬ Left r X e.cell e.digit) → st ∈ first :: rest →
        Pattern.Matches (Pattern.after E R) st x →
        (∀ e, Pattern.entry x = some e → r.1[e.cell] ≠ 0) ∧ ∀ e ∈ Pattern.removed x, ¬ Left r X e.cell e.digit := by
      intro E R st x dE dR hE hR hst hm
      have hEt : ∀ e ∈ E, dig t e.cell = e.digit := fun e he => dig_eq ht.1.1 ((C80_sound _ t ht (dE e he)).mpr rfl)
      have hRt : ∀ e ∈ R, dig t e.cell ≠ e.digit := fun e he hd =>
        absurd ((C80_sound _ t ht (dR e he)).mp (by rw [← hd]; exact dig_spec ht.1.1 _)) (by decide)
      have hlive : Live t (fun c => ∃ e ∈ E, e.cell = c) (Pattern.after E R) := by
        refine ⟨?_, fun c hc => ⟨fun hmem => hRt _ hmem rfl, fun e he => ⟨fun h1 => hc ⟨e, he, h1⟩, ?_⟩⟩, ?_⟩
        · rintro c d hP ⟨e, he, rfl⟩
          exact (hP.2 e he).1 rfl
        · rintro ⟨hs, hd⟩
          have hne : e.cell ≠ c := fun h1 => hc ⟨e, he, h1⟩
          refine ht.1.1.2 e.cell c hne hs ?_
          rw [dig_spec ht.1.1 e.cell, dig_spec ht.1.1 c, ← hd, hEt e he]
        · rintro c c' d ⟨e, he, rfl⟩ hs hP hd
          exact (hP.2 e he).2 ⟨hs, by rw [← hd, hEt e he]⟩
      have hle : ∀ c d, Left r X c d → Pattern.after E R c d := by
        intro c d hld
        refine ⟨fun hmem => hR _ hmem hld, fun e he => ⟨?_, ?_⟩⟩
        · rintro rfl
          exact hE e he hld.1
        · rintro ⟨hs, rfl⟩
          refine hld.2.2.1 _ hs ?_
          rw [(s1 _).resolve_left (hE e he), dig_spec ht.1.1, hEt e he]
      exact persist ht.1.1 hlive hlive' hle (N := fun st => st ∈ first :: rest) (fun st hst x => hnone st hst x)
        hw.1 hw.2.1 hw.2.2 hst hm
    induction hd with
    | @given e h1 =>
      refine ⟨fun _ => ?_, fun h => absurd h (by decide)⟩
      have h0 : g[e.cell] ≠ 0 := by rw [h1]; exact Digit.get_ne_zero _
      rw [b1 _ h0]
      exact h0
    | excluded h1 => exact ⟨fun h => absurd h (by decide), fun _ hld => hld.2.1 h1⟩
    | entry dE dR hst hm he ihE ihR =>
      exact ⟨fun _ => (step dE dR (fun e h => (ihE e h).1 rfl) (fun e h => (ihR e h).2 rfl) hst hm).1 _ he,
        fun h => absurd h (by decide)⟩
    | removed dE dR hst hm he ihE ihR =>
      exact ⟨fun h => absurd h (by decide),
        fun _ => (step dE dR (fun e h => (ihE e h).1 rfl) (fun e h => (ihR e h).2 rfl) hst hm).2 _ he⟩

/-- **C80**: `solve` enters exactly the digits that follow by its strategies.  The list of strategies contains both kinds of
singles (`NakedSingles` not only in the first place) and the simpler variants of its strategies. -/
theorem C80_entered (h : Reaches looked s g X) (hf : 1000 ≤ fuel) (first : Strategy) (rest : List Strategy)
    (hw : WithSimpler (first :: rest)) (hn : .nakedSingles ∈ rest) (r : Grid × Deductions)
    (hr : Returned fuel (first :: rest) s r) (t : Grid) (ht : SolutionOf g X t) (c : Fin 81) (d : Digit) :
    r.1[c] = d.get ↔ Derivable (first :: rest) g X true ⟨c, d⟩ := by
  refine ⟨(C80_only h hf _ r hr t ht).1 c d, fun hd => ?_⟩
  obtain ⟨s1, -⟩ := C39_sound h hf _ r hr t ht
  rw [(s1 c).resolve_left ((found h hf first rest hw hn r hr t ht hd).1 rfl)]
  exact (C80_sound _ t ht hd).mpr rfl

/-- **C80**: exactly the candidates are left that do not follow to be excluded, are not in a cell whose digit follows, and
not in a row, column or block with a cell for which their digit follows. -/
theorem C80_left (h : Reaches looked s g X) (hf : 1000 ≤ fuel) (first : Strategy) (rest : List Strategy)
    (hw : WithSimpler (first :: rest)) (hn : .nakedSingles ∈ rest) (r : Grid × Deductions)
    (hr : Returned fuel (first :: rest) s r) (t : Grid) (ht : SolutionOf g X t) (c : Fin 81) (d : Digit) :
    Left r X c d ↔ ¬ Derivable (first :: rest) g X false ⟨c, d⟩ ∧ (∀ d', ¬ Derivable (first :: rest) g X true ⟨c, d'⟩) ∧
      ∀ c' : Fin 81, SameHouse c' c → ¬ Derivable (first :: rest) g X true ⟨c', d⟩ := by
  have he := C80_entered h hf first rest hw hn r hr t ht
  constructor
  · intro hld
    refine ⟨fun hd => (found h hf first rest hw hn r hr t ht hd).2 rfl hld, fun d' hd => ?_, fun c' hs hd => ?_⟩
    · exact (found h hf first rest hw hn r hr t ht hd).1 rfl hld.1
    · exact hld.2.2.1 c' hs ((he c' d).mpr hd)
  · rintro ⟨h1, h2, h3⟩
    refine ⟨?_, fun hx => h1 (.excluded hx), fun c' hs hc' => h3 c' hs ((he c' d).mp hc'), fun i x hx hm =>
      h1 (((C80_only h hf _ r hr t ht).2 i x hx).2 _ hm)⟩
    by_contra h0
    obtain ⟨a1, -, -⟩ := C48_accounted h (Or.inr (Consistent.of_solution ht)) hf _ r hr
    obtain ⟨d', h4, -⟩ := a1 c h0
    exact h2 d' ((he c d').mp h4)

/-- **C80**: `solve` succeeds exactly if the digits of all cells follow. -/
theorem C80_solved (h : Reaches looked s g X) (hf : 1000 ≤ fuel) (first : Strategy) (rest : List Strategy)
    (hw : WithSimpler (first :: rest)) (hn : .nakedSingles ∈ rest) (r : Grid × Deductions)
    (hr : Returned fuel (first :: rest) s r) (t : Grid) (ht : SolutionOf g X t) :
    s.solve fuel (first :: rest) = .ok (.ok r) ↔ ∀ c : Fin 81, ∃ d, Derivable (first :: rest) g X true ⟨c, d⟩ := by
  have he := C80_entered h hf first rest hw hn r hr t ht
  constructor
  · intro hok c
    obtain ⟨h1, -⟩ := C49_solved_partial h (Or.inr (Consistent.of_solution ht))
      (fun c d hg hx => ht.2 c d hx (by rw [ht.1.2 c (by rw [hg]; exact Digit.get_ne_zero d), hg])) hf _ r hok
    exact ⟨dig r.1 c, (he c _).mp (dig_spec h1.1.1 c)⟩
  · intro hall
    refine hr.resolve_right fun herr => ?_
    obtain ⟨c, h0⟩ := C65_unfinished h hf first rest r herr t ht
    obtain ⟨d, hd⟩ := hall c
    exact Digit.get_ne_zero d (((he c d).mpr hd).symm.trans h0)

/-- What follows also follows by more strategies. -/
theorem _root_.Verif.Strat.Derivable.mono {sts sts' : List Strategy} (hs : ∀ st ∈ sts, st ∈ sts') {b : Bool} {e : Candidate}
    (h : Derivable sts g X b e) : Derivable sts' g X b e := by
  induction h with
  | given h => exact .given h
  | excluded h => exact .excluded h
  | entry _ _ hst hm he ihE ihR => exact .entry ihE ihR (hs _ hst) hm he
  | removed _ _ hst hm he ihE ihR => exact .removed ihE ihR (hs _ hst) hm he

/-- C80: without the simpler variants it is false: `solve` may miss a digit that follows, here by `XyzWing`. -/
theorem C80_without_simpler_false : ∃ (first : Strategy) (rest : List Strategy) (s : Solver) (g : Grid)
    (X : Fin 81 → Digit → Prop) (t : Grid) (r : Grid × Deductions) (c : Fin 81) (d : Digit),
    .nakedSingles ∈ rest ∧ .hiddenSingles ∈ first :: rest ∧
    (∀ st ∈ first :: rest, st ∈ [.nakedSingles, .hiddenSingles, .lockedCandidates, .xyzWing]) ∧ Reaches false s g X ∧ SolutionOf g X t ∧
    Returned 1000 (first :: rest) s r ∧ Derivable (first :: rest) g X true ⟨c, d⟩ ∧ r.1[c] = 0 := by
  obtain ⟨s, g, X, t, r, r', hre, ht, hr, hr', hne⟩ := C64_without_simpler_false
  obtain ⟨s1, -⟩ := C39_sound hre (Nat.le_refl 1000) _ r hr t ht
  obtain ⟨s1', -⟩ := C39_sound hre (Nat.le_refl 1000) _ r' hr' t ht
  have hc : ∃ c : Fin 81, r.1[c] ≠ r'.1[c] := by
    by_contra hall
    push Not at hall
    exact hne (Vector.ext fun i hi => hall ⟨i, hi⟩)
  obtain ⟨c, hc⟩ := hc
  have htc := dig_spec ht.1.1 c
  by_cases h0 : r'.1[c] = 0
  · have h1 : r.1[c] = t[c] := (s1 c).resolve_left fun h => hc (h.trans h0.symm)
    exact ⟨_, _, s, g, X, t, r', c, dig t c, by decide, by decide, by decide, hre, ht, hr',
      ((C80_only hre (Nat.le_refl 1000) _ r hr t ht).1 c _ (h1.trans htc)).mono (by decide), h0⟩
  · have h1 : r'.1[c] = t[c] := (s1' c).resolve_left h0
    have h2 : r.1[c] = 0 := by
      rcases s1 c with h | h
      · exact h
      · exact absurd (h.trans h1.symm) hc
    exact ⟨_, _, s, g, X, t, r, c, dig t c, by decide, by decide, by decide, hre, ht, hr,
      ((C80_only hre (Nat.le_refl 1000) _ r' hr' t ht).1 c _ (h1.trans htc)).mono (by decide), h2⟩

/-- C80: all strategies and a grid state in which a digit follows that is not given. -/
example : ∃ (s : Solver) (g : Grid) (X : Fin 81 → Digit → Prop) (t : Grid) (r : Grid × Deductions) (c : Fin 81) (d : Digit),
    Reaches false s g X ∧ SolutionOf g X t ∧
    Returned 1000 [.hiddenSingles, .jellyfish, .hiddenQuads, .nakedQuads, .xyzWing, .xyWing, .swordfish, .xWing,
      .hiddenTriples, .hiddenPairs, .nakedTriples, .nakedPairs, .lockedCandidates, .nakedSingles] s r ∧
    g[c] = 0 ∧ r.1[c] = d.get := by
  obtain ⟨first, rest, s, g, X, t, r, c, d, -, -, hst, hre, ht, hr, hd, h0⟩ := C80_without_simpler_false
  obtain ⟨r', hr'⟩ := C41_solve hre (Nat.le_refl 1000) [.hiddenSingles, .jellyfish, .hiddenQuads, .nakedQuads, .xyzWing,
    .xyWing, .swordfish, .xWing, .hiddenTriples, .hiddenPairs, .nakedTriples, .nakedPairs, .lockedCandidates,
    .nakedSingles] (by decide)
  refine ⟨s, g, X, t, r', c, d, hre, ht, hr', ?_, ?_⟩
  · by_contra hg
    exact hg (((C48_entered hre (Nat.le_refl 1000) _ r hr t ht).1 c hg).symm.trans h0)
  · exact (C80_entered hre (Nat.le_refl 1000) _ _ (by decide) (by decide) r' hr' t ht c d).mpr
      (hd.mono fun st h => by have := hst st h; revert this; cases st <;> decide)

end Verif.Props
