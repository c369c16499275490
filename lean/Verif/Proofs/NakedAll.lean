import Verif.Proofs.StratIdle

/-! # Updating with `find_naked_singles`: no cell with one possible digit is missed -/
namespace Verif.Strat

open Bitset

/-- A cell with one possible digit is filled in the grid. -/
structure Singles (s : Solver) : Prop where
  fits : ∀ c : Fin 81, Fits 9 s.cp[c]
  filled : ∀ (c : Fin 81) (d : Digit), (∀ i, s.cp[c].getLsbD i = true ↔ i = d.val) → s.grid[c] ≠ 0

theorem Singles.of_eq {s s' : Solver} (h : Singles s) (h1 : s'.cp = s.cp) (h2 : s'.grid = s.grid) : Singles s' := by
  refine ⟨?_, ?_⟩
  · rw [h1]; exact h.fits
  · rw [h1, h2]; exact h.filled

theorem Singles.removeImp {s : Solver} (h : Singles s) (c : Fin 81) (m : DigitSet) (r : Solver × Bool)
    (hr : s.removeImpossibilities c m true = .ok r) (hok : r.2 = true) : Singles r.1 := by
  have hget : ∀ x : Fin 81, (s.cp.set c.val (without s.cp[c] m) c.isLt)[x] = if c = x then without s.cp[c] m else s.cp[x] :=
    fun x => get_set_fin _ _ _ _
  have hfit : ∀ x : Fin 81, Fits 9 (s.cp.set c.val (without s.cp[c] m) c.isLt)[x] := by
    intro x
    rw [hget]
    split
    · exact (h.fits c).without
    · exact h.fits x
  unfold Solver.removeImpossibilities at hr
  simp only [if_true] at hr
  rcases uniqueItem_spec (n := 9) (by omega) (by omega) (by omega) ((h.fits c).without (b := m))
    with ⟨_, e⟩ | ⟨d, hu, e⟩ | ⟨hl, e⟩
  · simp only [e, Res.ok_bind] at hr
    cases hr
    cases hok
  · simp only [e, Res.ok_bind] at hr
    have other : ∀ (x : Fin 81) (d : Digit), c ≠ x →
        (∀ i, (s.cp.set c.val (without s.cp[c] m) c.isLt)[x].getLsbD i = true ↔ i = d.val) → s.grid[x] ≠ 0 := by
      intro x d hne hx
      rw [hget, if_neg hne] at hx
      exact h.filled x d hx
    rcases push_cases { s with cp := s.cp.set c (without s.cp[c] m) } ⟨c, d⟩ (.nakedSingles ⟨c, d⟩) (Or.inl rfl)
      with ⟨h0, e⟩ | ⟨h0, e⟩ | ⟨_, _, e⟩
    · rw [e] at hr
      cases hr
      refine ⟨hfit, fun x d' hx => ?_⟩
      by_cases hcx : c = x
      · subst hcx
        show s.grid[c] ≠ 0
        have h0 : s.grid[c] = Digit.get d := h0
        rw [h0]
        exact Digit.get_ne_zero _
      · exact other x d' hcx hx
    · rw [e] at hr
      cases hr
      refine ⟨hfit, fun x d' hx => ?_⟩
      show (s.grid.set c.val (Digit.get d) c.isLt)[x] ≠ 0
      rw [get_set_fin]
      split
      · exact Digit.get_ne_zero _
      · rename_i hcx
        exact other x d' hcx hx
    · rw [e] at hr
      cases hr
      cases hok
  · simp only [e, Res.ok_bind] at hr
    cases hr
    refine ⟨hfit, fun x d' hx => ?_⟩
    have hx : ∀ i, (s.cp.set c.val (without s.cp[c] m) c.isLt)[x].getLsbD i = true ↔ i = d'.val := hx
    rw [hget] at hx
    split at hx
    · obtain ⟨i, j, hij, hi, hj⟩ := two_of_card hl
      rw [hx] at hi hj
      exact absurd (hi.trans hj.symm) hij
    · exact h.filled x d' hx

theorem Singles.entered {s : Solver} (h : Singles s) (e : Candidate) : Singles (s.entered e) := by
  have hget : ∀ x : Fin 81, (s.entered e).cp[x] = if e.cell = x then 0#16 else s.cp[x] := by
    intro x
    show (s.cp.set e.cell.val (NONE 16) e.cell.isLt)[x] = _
    rw [get_set_fin]
    rfl
  refine ⟨fun x => ?_, fun x d hx => ?_⟩
  · rw [hget]
    split
    · intro i hi; simp at hi
    · exact h.fits x
  · rw [hget] at hx
    split at hx
    · have := (hx d.val).mpr rfl
      simp at this
    · exact h.filled x d hx

theorem Singles.neighbors {s : Solver} (h : Singles s) (m : DigitSet) (cells : List (Fin 81)) (r : Solver × Bool)
    (hr : s.removeFromNeighbors m true cells = .ok r) (hok : r.2 = true) : Singles r.1 := by
  refine tryEach_keep Singles (fun c s1 h1 r1 hr1 ok1 => ?_) cells s h r hr hok
  split at hr1
  · exact h1.removeImp c m r1 hr1 ok1
  · cases hr1
    exact h1

theorem Singles.batchRemove {s : Solver} (h : Singles s) (r : Solver × Bool)
    (hr : s.batchRemove true = .ok r) (hok : r.2 = true) : Singles r.1 := by
  refine tryEach_keep Singles (fun c s1 h1 r1 hr1 ok1 => ?_) _ s h r hr hok
  split at hr1
  · cases hr1
    exact h1
  · exact h1.removeImp c _ r1 hr1 ok1

theorem advance_cases {s s1 : Solver} (h : s.advance = .ok s1) : s1 = s.advanced :=
  advance_part (P := fun x => x = s.advanced) rfl s1 h

theorem insert_cases {s s1 : Solver} {e : Candidate} (h : s.insertCandidateCpZs e = .ok s1) : s1 = s.entered e := by
  unfold Solver.insertCandidateCpZs at h
  obtain ⟨_, _, h⟩ := bind_ok h
  cases h
  rfl

theorem insertSingly_singles : ∀ (fuel : Nat) (s s' : Solver), Singles s →
    Solver.insertSingly true fuel s = .ok (s', true) → Singles s' := by
  intro fuel
  induction fuel with
  | zero => intro s s' _ he; cases he
  | succ fuel ih =>
    intro s s' h he
    unfold Solver.insertSingly at he
    split at he
    · cases he; exact h
    · rename_i e _
      obtain ⟨s1, h1, he⟩ := bind_ok he
      cases advance_cases h1
      have ha : Singles s.advanced := h.of_eq rfl rfl
      split at he
      · exact ih _ _ ha he
      · split at he
        · cases he
        · obtain ⟨s2, h2, he⟩ := bind_ok he
          cases insert_cases h2
          obtain ⟨⟨s3, ok⟩, h3, he⟩ := bind_ok he
          cases ok
          · cases he
          · have hn : Singles s3 := (ha.entered e).neighbors _ _ _ h3 rfl
            simp only [Bool.not_true, Bool.false_eq_true, if_false] at he
            split at he
            · cases he
            · split at he
              · cases he; exact hn
              · exact ih _ _ hn he

theorem batchInsert_singles : ∀ (fuel : Nat) (s s' : Solver), Singles s →
    Solver.batchInsert fuel s = .ok (s', true) → Singles s' := by
  intro fuel
  induction fuel with
  | zero => intro s s' _ he; cases he
  | succ fuel ih =>
    intro s s' h he
    unfold Solver.batchInsert at he
    split at he
    · cases he; exact h
    · rename_i e _
      obtain ⟨s1, h1, he⟩ := bind_ok he
      cases advance_cases h1
      have ha : Singles s.advanced := h.of_eq rfl rfl
      split at he
      · exact ih _ _ ha he
      · split at he
        · cases he
        · obtain ⟨s2, h2, he⟩ := bind_ok he
          cases insert_cases h2
          exact ih _ _ (ha.entered e) he

theorem insertLoop_singles {fuel0 : Nat} : ∀ (fuel : Nat) (s s' : Solver), Singles s →
    Solver.insertLoop fuel0 true fuel s = .ok (s', true) → Singles s' := by
  intro fuel
  induction fuel with
  | zero => intro s s' _ he; cases he
  | succ fuel ih =>
    intro s s' h he
    unfold Solver.insertLoop at he
    split at he
    · cases he
    · dsimp only at he
      split at he
      · cases he; exact h
      · split at he
        · obtain ⟨s1, h1, h2⟩ := andThen_ok he
          exact ih _ _ (insertSingly_singles _ _ _ h h1) h2
        · obtain ⟨s1, h1, h2⟩ := andThen_ok he
          obtain ⟨s2, h3, h4⟩ := andThen_ok h1
          exact ih _ _ ((batchInsert_singles _ _ _ h h3).batchRemove _ h4 rfl) h2

/-- `_update_cell_poss_house_solved(true)` -/
theorem update_singles {fuel : Nat} {s s' : Solver} (h : Singles s) (hw : s.cpElim ≤ s.eliminated.length)
    (he : s.update fuel true true = .ok (s', true)) : Singles s' := by
  unfold Solver.update at he
  dsimp only at he
  rw [if_neg (by omega), decide_eq_false (by omega)] at he
  obtain ⟨s1, h1, h2⟩ := andThen_ok he
  have hs1 : Singles s1 := tryEach_keep Singles (fun e s2 h2 r hr ok => h2.removeImp e.cell e.digitSet r hr ok) _ s h _ h1 rfl
  unfold Solver.insertEntries at h2
  obtain ⟨_, _, h2⟩ := bind_ok h2
  simp only [Bool.false_eq_true, if_false] at h2
  exact insertLoop_singles _ { s1 with cpElim := s1.eliminated.length % 65536 } _ (hs1.of_eq rfl rfl) h2

end Verif.Strat
