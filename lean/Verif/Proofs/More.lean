import Verif.Proofs.Easier

/-! # The strategy solver: strategies added at the end of the list -/
namespace Verif.Strat

open Bitset Generator

variable {sts : List Strategy} {first : Strategy}

/-- What one call of a strategy does, as far as it matters here. -/
theorem deduce_begins {st : Strategy} {fuel : Nat} (hf : 1000 ≤ fuel) {stop : Bool} {s : Solver} (h : W 0 s) {g : Grid}
    (hs : Sem s g) {r : Solver × Bool} (he : st.deduce fuel stop (!stop) s = .ok r) :
    Begins s r.1 ∧ (r.2 = true → W 0 r.1 ∧ ∃ g', Sem r.1 g') := by
  have hav : st ≠ .avoidableRectangles := by
    rintro rfl
    cases he
  have hstep := deduce_step (sts := [st]) (by simp) hav hf (stop := stop) (isFirst := !stop) (by simp) h
  have hmk := deduce_marks hf (stop := stop) (isFirst := !stop) (by simp) h he
  rw [he] at hstep
  obtain ⟨r1, g1, _, sem1⟩ := hstep.sem g hs
  exact ⟨hmk.begins r1, fun hr => ⟨hstep.w hr, g1, sem1 hr⟩⟩

theorem restLoop_begins {fuel : Nat} (hf : 1000 ≤ fuel) {n m : Nat} : ∀ (rs : List Strategy) (s : Solver)
    (r : Solver × Bool) (g : Grid), W 0 s → Sem s g → restLoop fuel n m rs s = .ok r →
    Begins s r.1 ∧ (r.2 = true → W 0 r.1 ∧ ∃ g', Sem r.1 g') := by
  intro rs
  induction rs with
  | nil =>
    intro s r g _ _ he
    cases he
    exact ⟨Begins.refl s, fun h => by cases h⟩
  | cons st rs ih =>
    intro s r g h hs he
    unfold restLoop at he
    obtain ⟨⟨s1, ok⟩, h1, h2⟩ := bind_ok he
    obtain ⟨hb, hw⟩ := deduce_begins hf (stop := true) h hs h1
    cases ok
    · cases h2
      exact ⟨hb, fun h => by cases h⟩
    · obtain ⟨w1, g1, sem1⟩ := hw rfl
      simp only [Bool.not_true, Bool.false_eq_true, if_false] at h2
      split at h2
      · cases h2
        exact ⟨hb, fun _ => ⟨w1, g1, sem1⟩⟩
      · obtain ⟨i1, i2⟩ := ih s1 r g1 w1 sem1 h2
        exact ⟨hb.trans i1, i2⟩

theorem solveLoop_begins {fuel0 : Nat} (hf : 1000 ≤ fuel0) {rest : List Strategy} : ∀ (fuel : Nat) (s s' : Solver) (g : Grid),
    W 0 s → Sem s g → solveLoop fuel0 first rest fuel s = .ok s' → Begins s s' := by
  intro fuel
  induction fuel with
  | zero => intro s s' g _ _ he; cases he
  | succ fuel ih =>
    intro s s' g h hs he
    unfold solveLoop at he
    split at he
    · cases he
      exact Begins.refl s
    · dsimp only at he
      obtain ⟨⟨s1, ok⟩, h1, h2⟩ := bind_ok he
      obtain ⟨hb, hw⟩ := deduce_begins hf (stop := false) h hs h1
      cases ok
      · cases h2
        exact hb
      · obtain ⟨w1, g1, sem1⟩ := hw rfl
        simp only [Bool.not_true, Bool.false_eq_true, if_false] at h2
        split at h2
        · exact hb.trans (ih s1 s' g1 w1 sem1 h2)
        · obtain ⟨⟨s2, again⟩, h3, h4⟩ := bind_ok h2
          obtain ⟨hb2, hw2⟩ := restLoop_begins hf rest s1 (s2, again) g1 w1 sem1 h3
          cases again
          · cases h4
            exact hb.trans hb2
          · obtain ⟨w2, g2, sem2⟩ := hw2 rfl
            exact (hb.trans hb2).trans (ih s2 s' g2 w2 sem2 h4)

/-- The strategies after the first one, with more of them. -/
theorem restLoop_more {fuel : Nat} (hf : 1000 ≤ fuel) {n m : Nat} {more : List Strategy} : ∀ (rs : List Strategy)
    (s : Solver) (r r' : Solver × Bool) (g : Grid), W 0 s → Sem s g → restLoop fuel n m rs s = .ok r →
    restLoop fuel n m (rs ++ more) s = .ok r' → r.2 = true ∧ r' = r ∨ r.2 = false ∧ Begins r.1 r'.1 := by
  intro rs
  induction rs with
  | nil =>
    intro s r r' g h hs he he'
    cases he
    exact Or.inr ⟨rfl, (restLoop_begins hf more s r' g h hs he').1⟩
  | cons st rs ih =>
    intro s r r' g h hs he he'
    rw [List.cons_append] at he'
    unfold restLoop at he he'
    obtain ⟨⟨s1, ok⟩, h1, h2⟩ := bind_ok he
    rw [h1, Res.ok_bind] at he'
    obtain ⟨-, hw⟩ := deduce_begins hf (stop := true) h hs h1
    cases ok
    · cases h2
      cases he'
      exact Or.inr ⟨rfl, Begins.refl _⟩
    · obtain ⟨w1, g1, sem1⟩ := hw rfl
      simp only [Bool.not_true, Bool.false_eq_true, if_false] at h2 he'
      split at h2
      · rename_i hc
        rw [if_pos hc] at he'
        cases h2
        cases he'
        exact Or.inl ⟨rfl, rfl⟩
      · rename_i hc
        rw [if_neg hc] at he'
        exact ih s1 r r' g1 w1 sem1 h2 he'

theorem solveLoop_more {fuel0 : Nat} (hf : 1000 ≤ fuel0) {rest more : List Strategy} : ∀ (fuel : Nat) (s s1 s2 : Solver)
    (g : Grid), W 0 s → Sem s g → solveLoop fuel0 first rest fuel s = .ok s1 →
    solveLoop fuel0 first (rest ++ more) fuel s = .ok s2 → Begins s1 s2 := by
  intro fuel
  induction fuel with
  | zero => intro s s1 s2 g _ _ he; cases he
  | succ fuel ih =>
    intro s s' s'' g h hs he he'
    unfold solveLoop at he he'
    split at he
    · rename_i hc
      rw [if_pos hc] at he'
      cases he
      cases he'
      exact Begins.refl s
    · rename_i hc
      rw [if_neg hc] at he'
      dsimp only at he he'
      obtain ⟨⟨s1, ok⟩, h1, h2⟩ := bind_ok he
      rw [h1, Res.ok_bind] at he'
      obtain ⟨-, hw⟩ := deduce_begins hf (stop := false) h hs h1
      cases ok
      · cases h2
        cases he'
        exact Begins.refl _
      · obtain ⟨w1, g1, sem1⟩ := hw rfl
        simp only [Bool.not_true, Bool.false_eq_true, if_false] at h2 he'
        split at h2
        · rename_i hc
          rw [if_pos hc] at he'
          exact ih s1 s' s'' g1 w1 sem1 h2 he'
        · rename_i hc
          rw [if_neg hc] at he'
          obtain ⟨⟨s2, again⟩, h3, h4⟩ := bind_ok h2
          obtain ⟨⟨s3, again'⟩, h3', h4'⟩ := bind_ok he'
          rcases restLoop_more hf rest s1 _ _ g1 w1 sem1 h3 h3' with ⟨k1, k2⟩ | ⟨k1, k2⟩
          · cases k1
            cases k2
            obtain ⟨w2, g2, sem2⟩ := (restLoop_begins hf rest s1 (s2, true) g1 w1 sem1 h3).2 rfl
            exact ih s2 s' s'' g2 w2 sem2 h4 h4'
          · cases k1
            cases h4
            dsimp only at k2
            cases again'
            · cases h4'
              exact k2
            · obtain ⟨w3, g3, sem3⟩ := (restLoop_begins hf _ s1 (s3, true) g1 w1 sem1 h3').2 rfl
              exact k2.trans (solveLoop_begins hf fuel s3 s'' g3 w3 sem3 h4')

/-- The deductions of a run are the first ones of a run with more strategies. -/
theorem solve_more {fuel : Nat} (hf : 1000 ≤ fuel) {s : Solver} {gh : Grid} (h : W 0 s) (hs : Sem s gh)
    {rest more : List Strategy} {r r' : Grid × Deductions} (hr : Returned fuel (first :: rest) s r)
    (hr' : Returned fuel (first :: (rest ++ more)) s r') {i : Nat} {x : Deduction (List Candidate)}
    (hx : r.2.get i = .ok (some x)) : r'.2.get i = .ok (some x) := by
  have run : ∀ {sts : List Strategy} {r : Grid × Deductions}, Returned fuel sts s r →
      ∃ s', s.trySolve fuel sts = .ok s' ∧ r = s'.outcome := by
    intro sts r hr
    rcases hr with hr | hr
    all_goals
      unfold Solver.solve at hr
      obtain ⟨s', h1, h2⟩ := bind_ok hr
      dsimp only at h2
      split at h2
      all_goals cases h2
      exact ⟨s', h1, rfl⟩
  obtain ⟨s1, h1, rfl⟩ := run hr
  obtain ⟨s2, h2, rfl⟩ := run hr'
  exact ((solveLoop_more hf fuel s s1 s2 gh h hs h1 h2).get hx).2

end Verif.Strat
