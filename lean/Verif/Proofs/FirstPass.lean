import Verif.Proofs.StratFresh
import Verif.Proofs.StratIdle

/-! # The strategy solver: the first strategy of the list finds everything in one pass -/
namespace Verif.Strat

/-- What is excluded stays excluded. -/
theorem solveLoop_grows {first : Strategy} {rest : List Strategy} {fuel0 : Nat} (hf : 1000 ≤ fuel0) :
    ∀ (fuel : Nat) (s s' : Solver) (g : Grid), W 0 s → Sem s g → solveLoop fuel0 first rest fuel s = .ok s' →
    s.eliminated <+: s'.eliminated := by
  intro fuel
  induction fuel with
  | zero => intro s s' g _ _ he; cases he
  | succ fuel ih =>
    intro s s' g h hs he
    unfold solveLoop at he
    split at he
    · cases he
      exact List.prefix_rfl
    · dsimp only at he
      obtain ⟨⟨s1, ok⟩, h1, h2⟩ := bind_ok he
      have hav : first ≠ .avoidableRectangles := by
        rintro rfl
        cases h1
      have hst := deduce_step (sts := [first]) (by simp) hav hf (stop := false) (isFirst := true) rfl h
      rw [h1] at hst
      obtain ⟨r1, g1, _, sem1⟩ := hst.sem g hs
      have p1 : s.eliminated <+: s1.eliminated := r1.elim.elim fun x hx => ⟨x, hx.symm⟩
      cases ok
      · cases h2
        exact p1
      · simp only [Bool.not_true, Bool.false_eq_true, if_false] at h2
        split at h2
        · exact p1.trans (ih s1 s' g1 (hst.w rfl) (sem1 rfl) h2)
        · obtain ⟨⟨s2, again⟩, h3, h4⟩ := bind_ok h2
          have hrest : ∀ st ∈ usable rest, st ∈ rest ∧ st ≠ .avoidableRectangles :=
            fun st hst => ⟨usable_sub rest st hst, usable_ne rest st hst⟩
          have h5 := restLoop_step (sts := rest) hf s.deduced.length s.eliminated.length (usable rest) s1 hrest (hst.w rfl)
          rw [restLoop_usable h3] at h5
          obtain ⟨r2, g2, _, sem2⟩ := h5.1.sem g1 (sem1 rfl)
          have p2 : s1.eliminated <+: s2.eliminated := r2.elim.elim fun x hx => ⟨x, hx.symm⟩
          cases again
          · cases h4
            exact p1.trans p2
          · exact (p1.trans p2).trans (ih s2 s' g2 (h5.1.w rfl) (sem2 rfl) h4)

/-- The candidates at the start. -/
theorem possible_eq {s : Solver} {g : Grid} {X : Fin 81 → Digit → Prop} (h : Inv s g X) :
    Possible g X = CandL s.deduced s.eliminated := by
  funext c d
  refine propext ⟨?_, ?_⟩
  · rintro ⟨h0, hx, hd⟩
    refine ⟨?_, fun e he => ⟨?_, ?_⟩⟩
    · rintro ⟨c', d'⟩ he ⟨rfl, rfl⟩
      exact hx ((h.elim _ _).mp he)
    · rintro rfl
      exact Digit.get_ne_zero _ ((h.ded' he).symm.trans h0)
    · rintro ⟨rfl, hsh⟩
      by_cases hc : e.cell = c
      · subst hc
        exact Digit.get_ne_zero _ ((h.ded' he).symm.trans h0)
      · exact hd e.cell hc hsh (h.ded' he)
  · rintro ⟨h1, h2⟩
    refine ⟨?_, fun hx => h1 ⟨c, d⟩ ((h.elim _ _).mpr hx) ⟨rfl, rfl⟩, fun c' _ hsh hc => ?_⟩
    · by_contra h0
      obtain ⟨d', hd'⟩ := h.wf c h0
      exact (h2 ⟨c, d'⟩ ((h.ded _ _).mpr hd')).1 rfl
    · exact (h2 ⟨c', d⟩ ((h.ded _ _).mpr hc)).2 ⟨rfl, hsh⟩

/-- The candidates that a pattern excludes are candidates. -/
theorem Matches.cand {cand : Fin 81 → Digit → Prop} {st : Strategy} {d : Deduction (List Candidate)}
    (h : Pattern.Matches cand st d) {e : Candidate} (he : e ∈ Pattern.removed d) : cand e.cell e.digit := by
  cases st <;> cases d <;> first
    | exact h.elim
    | cases he; done
    | exact ((h.2.2.2.2.2.2 _ _).mp he).2
    | (obtain ⟨_, _, _, _, _, _, _, _, h⟩ := h; exact ((h _ _).mp he).2)
    | (obtain ⟨_, _, _, _, _, _, _, _, _, _, _, _, _, _, _, _, _, h⟩ := h; exact ((h _ _).mp he).2)
    | skip
  rename_i isP l
  cases isP
  · exact ((h.2.2.2 _ _).mp he).2
  · exact ((h.2.2.2 _ _).mp he).2

theorem solveLoop_first {first : Strategy} {rest : List Strategy} {fuel0 : Nat} (hf : 1000 ≤ fuel0) {t : Grid} (ht : Solved t)
    (fuel : Nat) (s s' : Solver) (g : Grid) (h : W 0 s) (hs : Sem s g) (ha : Agree t s)
    (hl : s'.eliminated.length < 65536) (he : solveLoop fuel0 first rest fuel s = .ok s') (d : Deduction (List Candidate))
    (hm : Pattern.Matches (CandL s.deduced s.eliminated) first d) (hse : Searched (CandL s.deduced s.eliminated) d)
    (e : Candidate) (hed : e ∈ Pattern.removed d) : e ∈ s'.eliminated := by
  cases fuel with
  | zero => cases he
  | succ fuel =>
    have hgrow := he
    unfold solveLoop at he
    split at he
    · rename_i hsol
      exfalso
      unfold Solver.isSolved at hsol
      have hfull := (hs.gh.full (by simpa using hsol)).1 e.cell
      obtain ⟨d', hd'⟩ := hs.gh.range _ hfull
      exact ((Matches.cand hm hed).2 _ (List.mem_of_mem_take (hs.gh.src _ _ hd'))).1 rfl
    · dsimp only at he
      obtain ⟨⟨s1, ok⟩, h1, h2⟩ := bind_ok he
      have hav : first ≠ .avoidableRectangles := by
        rintro rfl
        cases h1
      have hst := deduce_step (sts := [first]) (by simp) hav hf (stop := false) (isFirst := true) rfl h
      rw [h1] at hst
      obtain ⟨r1, g1, _, sem1⟩ := hst.sem g hs
      cases ok
      · cases h2
        exact absurd ha (hst.nosol rfl hl g hs t ht)
      · have hmem : e ∈ s1.eliminated := by
          by_contra hne
          refine deduce_calm (Sel := fun x => x = e) hf (Or.inl rfl) h hs ht ha h1 ?_ d hm hse ⟨e, hed, rfl⟩
          rintro x hx rfl
          exact hne (List.mem_of_mem_drop hx)
        simp only [Bool.not_true, Bool.false_eq_true, if_false] at h2
        split at h2
        · exact (solveLoop_grows hf fuel s1 s' g1 (hst.w rfl) (sem1 rfl) h2).subset hmem
        · obtain ⟨⟨s2, again⟩, h3, h4⟩ := bind_ok h2
          have hrest : ∀ st ∈ usable rest, st ∈ rest ∧ st ≠ .avoidableRectangles :=
            fun st hst => ⟨usable_sub rest st hst, usable_ne rest st hst⟩
          have h5 := restLoop_step (sts := rest) hf s.deduced.length s.eliminated.length (usable rest) s1 hrest (hst.w rfl)
          rw [restLoop_usable h3] at h5
          obtain ⟨r2, g2, _, sem2⟩ := h5.1.sem g1 (sem1 rfl)
          have p2 : s1.eliminated <+: s2.eliminated := r2.elim.elim fun x hx => ⟨x, hx.symm⟩
          cases again
          · cases h4
            exact p2.subset hmem
          · exact (p2.trans (solveLoop_grows hf fuel s2 s' g2 (h5.1.w rfl) (sem2 rfl) h4)).subset hmem

theorem solve_first {fuel : Nat} (hf : 1000 ≤ fuel) {first : Strategy} {rest : List Strategy} {s : Solver} {g gh : Grid}
    {X : Fin 81 → Digit → Prop} (h : Inv s g X) (hs : Sem s gh) {r : Grid × Deductions}
    (hr : Returned fuel (first :: rest) s r) (hl : r.2.eliminated.length < 65536) {t : Grid}
    (ht : SolutionOf g X t) {d : Deduction (List Candidate)} (hm : Pattern.Matches (Possible g X) first d)
    (hse : Searched (Possible g X) d) {e : Candidate} (hed : e ∈ Pattern.removed d) :
    ∃ i y, r.2.get i = .ok (some y) ∧ e ∈ Pattern.removed y := by
  have hout : ∃ s', s.trySolve fuel (first :: rest) = .ok s' ∧ r = s'.outcome := by
    rcases hr with hr | hr <;> unfold Solver.solve at hr <;> obtain ⟨s', h1, h2⟩ := bind_ok hr <;>
      refine ⟨s', h1, ?_⟩ <;> dsimp only at h2 <;> split at h2 <;> cases h2 <;> rfl
  obtain ⟨s', h4, rfl⟩ := hout
  have hrun := trySolve_spec (usable_ne (first :: rest)) hf h.w
  rw [trySolve_usable h4] at hrun
  have hX := (Matches.cand hm hed).2.1
  rw [possible_eq h] at hm hse
  have hmem := solveLoop_first hf ht.1.1 fuel s s' gh h.w hs (h.agree_of ht) hl h4 d hm hse e hed
  rcases (solve_covers h hs hrun.1).2.1 e hmem with h1 | h1
  · exact absurd h1 hX
  · exact h1

end Verif.Strat
