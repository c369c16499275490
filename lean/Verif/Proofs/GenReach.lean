import Verif.Proofs.GenSolve

/-!
# Every compatible grid is found for suitable random numbers
-/
namespace Verif.Generator

open Sudoku Bitset

attribute [local irreducible] size

/-- A guess can be any possible digit of the cell that is chosen. -/
theorem findGuess_any {s : Gen} (hi : Inv s) (hopen : ∃ c : Fin 81, s.grid[c] = 0) :
    ∃ (cell : Fin 81) (k : Nat), k < 81 ∧ s.poss[cell] ≠ 0#16 ∧
      ∀ d : Digit, s.poss[cell].getLsbD d.val = true → ∃ n, ∀ rng : Rng,
        s.findGuess (fun i => if i = 0 then n else rng (i - 1)) = .ok (⟨cell, d⟩, { s with last := k }, rng) := by
  obtain ⟨x, hx⟩ := hopen
  have hlast := hi.last
  have hloop := minLoop_spec hi 82 ((s.last + 1) % 81) 80 10 100 (by omega) (by omega) (by omega) (by omega)
    (Or.inr ⟨rfl, x, if (s.last + 1) % 81 ≤ x.val then x.val - (s.last + 1) % 81 else x.val + 81 - (s.last + 1) % 81, by
      have := x.isLt
      constructor
      · split <;> omega
      · constructor
        · split <;> omega
        · exact hi.opn x hx⟩)
  unfold Gen.findGuess Gen.findCellMinPoss
  cases hm : s.minLoop 82 ((s.last + 1) % 81) 10 100 with
  | err => rw [hm] at hloop; exact hloop.elim
  | panic => rw [hm] at hloop; exact hloop.elim
  | timeout => rw [hm] at hloop; exact hloop.elim
  | ok r =>
    rw [hm] at hloop
    obtain ⟨best, cell⟩ := r
    obtain ⟨⟨hb, hne⟩, hcell⟩ := hloop
    simp only at hb hne hcell
    refine ⟨⟨best, hb⟩, cell, hcell, hne, ?_⟩
    intro d hd
    have hfit : Fits 9 s.poss[best] := hi.fits ⟨best, hb⟩
    have hlen : (len s.poss[best]).toNat = (elems s.poss[best]).card := len_eq_card (by omega) _
    obtain ⟨n, hn, hget⟩ := List.getElem_of_mem (mem_mems.mpr (show s.poss[best].getLsbD d.val = true from hd))
    have hn' : n < (elems s.poss[best]).card := by rw [← length_mems hfit]; exact hn
    refine ⟨n, fun rng => ?_⟩
    simp only [Res.ok_bind, toFin, dif_pos hb]
    have hg : genRange (fun i => if i = 0 then n else rng (i - 1)) (len s.poss[best]).toNat = .ok (n, rng) := by
      unfold genRange
      rw [hlen, if_neg (by omega)]
      simp only [if_true]
      rw [Nat.mod_eq_of_lt hn']
      congr 1
    show (genRange _ (len s.poss[best]).toNat >>= fun x => _) = _
    rw [hg, Res.ok_bind]
    simp only []
    show (items 9 s.poss[best] >>= fun y => _) = _
    rw [items_eq (by omega) (by omega) hfit, Res.ok_bind]
    rw [List.getElem?_eq_getElem hn, hget]

theorem solveOne_reach (fuel0 : Nat) (hf0 : 1460 ≤ fuel0) : ∀ (fuel : Nat) (s : Gen) (stack : List Candidate) (t : Grid),
    Inv s → Fresh s → AllOpen s stack → 2 * size s + (if stack = [] then 1 else 0) < fuel →
    Sat s t → StackSat stack t →
    ∃ rng rng', Gen.solveOne fuel0 fuel s stack rng = .ok (some t, rng') := by
  intro fuel
  induction fuel with
  | zero => intro s stack t _ _ _ h; omega
  | succ fuel ih =>
    intro s stack t hi hfr hao hfuel hsat hstack
    have hbound := size_bound hi
    have hins := insertEntries_spec fuel0 fuel0 s stack hi hfr (by omega) (by rw [if_pos hao]; omega)
    unfold Gen.solveOne
    cases hres : s.insertEntries fuel0 fuel0 stack with
    | panic => rw [hres] at hins; exact hins.elim
    | timeout => rw [hres] at hins; exact hins.elim
    | err => rw [hres] at hins; exact (hins t hsat hstack).elim
    | ok s1 =>
      rw [hres] at hins
      obtain ⟨⟨h1, h2, h3, h4⟩, h5⟩ := hins
      simp only at h1 h2 h3 h4 h5 ⊢
      have i1 := h1.inv
      have hle := h1.size
      have hm1 : 2 * size s1 < fuel := by
        by_cases he : stack = []
        · rw [if_pos he] at hfuel; omega
        · have := h4 he hao
          omega
      have sat1 : Sat s1 t := (h3 t hsat hstack).1
      by_cases hsol : s1.isSolved = true
      · simp only [if_pos hsol]
        have hfull : ∀ c : Fin 81, s1.grid[c] ≠ 0 := clueCount_full (by
          rw [← i1.count]
          unfold Gen.isSolved at hsol
          simpa using hsol)
        have : s1.grid = t := by
          apply Vector.ext
          intro i hi
          exact ((sat1.2 ⟨i, hi⟩).1 (hfull ⟨i, hi⟩)).symm
        rw [this]
        exact ⟨fun _ => 0, _, rfl⟩
      · simp only [if_neg hsol]
        have hhid := findHiddenSingles_spec i1 h2 (List.finRange 27) [] (fun e he => by cases he)
          (fun t _ e he => by cases he)
        cases hres2 : s1.findHiddenSingles (List.finRange 27) [] with
        | panic => rw [hres2] at hhid; exact hhid.elim
        | timeout => rw [hres2] at hhid; exact hhid.elim
        | err => rw [hres2] at hhid; exact (hhid t sat1).elim
        | ok st =>
          rw [hres2] at hhid
          obtain ⟨a1, a2⟩ := hhid
          cases st with
          | cons e st =>
            exact ih s1 (e :: st) t i1 h2 a1 (by simp only [reduceCtorEq, if_false]; omega) sat1 (a2 t sat1)
          | nil =>
            simp only
            have hopen : ∃ c : Fin 81, s1.grid[c] = 0 := by
              by_contra hno
              apply hsol
              unfold Gen.isSolved
              rw [i1.count]
              have : clueCount s1.grid = 81 := by
                unfold clueCount
                have := List.countP_eq_length (p := fun c : Fin 81 => decide (s1.grid[c] ≠ 0)) (l := List.finRange 81)
                rw [this.mpr]
                · simp
                · intro c _
                  exact decide_eq_true (fun h => hno ⟨c, h⟩)
              rw [this]; rfl
            obtain ⟨cell, k, hk, hne, hany⟩ := findGuess_any i1 hopen
            have hop : s1.grid[cell] = 0 := by
              by_contra hh
              exact hne (i1.empty cell hh)
            obtain ⟨d, hd1, hd2⟩ := (sat1.2 cell).2 hop
            obtain ⟨n, hn⟩ := hany d hd2
            obtain ⟨rng, rng', hr⟩ := ih { s1 with last := k } [⟨cell, d⟩] t (last_inv i1 hk) h2 (by
              intro e he
              rw [List.mem_singleton] at he
              subst he
              exact hop) (by rw [if_neg (by simp), size_last]; omega) sat1 (by
              intro e he
              rw [List.mem_singleton] at he
              subst he
              exact hd1)
            refine ⟨fun i => if i = 0 then n else rng (i - 1), rng', ?_⟩
            rw [hn rng, Res.ok_bind]
            simp only []
            rw [hr, Res.ok_bind]

end Verif.Generator
