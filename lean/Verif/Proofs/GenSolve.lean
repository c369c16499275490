import Verif.Proofs.GenInsert

/-!
# The search of the generator: hidden singles, guesses and `randomized_solve_one`
-/
namespace Verif.Generator

open Sudoku Bitset

attribute [local irreducible] size

theorem houseCells_get : ∀ (h : Fin 27) (c : Fin 81), (Pos.houseCells h).getLsbD c.val = true ↔ InHouse h c := by
  unfold InHouse; decide +kernel

theorem houseCells_fits : ∀ h : Fin 27, Fits 81 (Pos.houseCells h) := by
  have key : ∀ h : Fin 27, ∀ i : Fin 128, (Pos.houseCells h).getLsbD i.val = true → i.val < 81 := by decide +kernel
  intro h i hi
  by_cases hlt : i < 128
  · exact key h ⟨i, hlt⟩ hi
  · rw [BitVec.getLsbD_of_ge _ _ (by omega)] at hi; cases hi

/-- The scan of a house: digits possible somewhere, and digits possible in more than one cell. -/
theorem houseScan_spec (s : Gen) (cells : List (Fin 81)) :
    (∀ i, (s.houseScan cells).1.getLsbD i = true ↔ ∃ c ∈ cells, s.poss[c].getLsbD i = true) ∧
    (∀ i, (s.houseScan cells).1.getLsbD i = true → (s.houseScan cells).2.getLsbD i = false →
      ∀ c ∈ cells, ∀ c' ∈ cells, s.poss[c].getLsbD i = true → s.poss[c'].getLsbD i = true → c = c') := by
  unfold Gen.houseScan
  suffices H : ∀ (cells pre : List (Fin 81)) (acc : DigitSet × DigitSet),
      (∀ i, acc.1.getLsbD i = true ↔ ∃ c ∈ pre, s.poss[c].getLsbD i = true) →
      (∀ i, acc.2.getLsbD i = false →
        ∀ c ∈ pre, ∀ c' ∈ pre, s.poss[c].getLsbD i = true → s.poss[c'].getLsbD i = true → c = c') →
      let r := cells.foldl (fun acc cell =>
        (union acc.1 s.poss[cell], union acc.2 (inter acc.1 s.poss[cell]))) acc
      (∀ i, r.1.getLsbD i = true ↔ ∃ c ∈ pre ++ cells, s.poss[c].getLsbD i = true) ∧
      (∀ i, r.2.getLsbD i = false →
        ∀ c ∈ pre ++ cells, ∀ c' ∈ pre ++ cells, s.poss[c].getLsbD i = true → s.poss[c'].getLsbD i = true → c = c') by
    have := H cells [] (NONE 16, NONE 16) (by intro i; simp [bit_none]) (by intro i _ c hc; cases hc)
    rw [List.nil_append] at this
    exact ⟨this.1, fun i _ h => this.2 i h⟩
  intro cells
  induction cells with
  | nil => intro pre acc h1 h2; rw [List.append_nil]; exact ⟨h1, h2⟩
  | cons x xs ih =>
    intro pre acc h1 h2
    have := ih (pre ++ [x]) (union acc.1 s.poss[x], union acc.2 (inter acc.1 s.poss[x])) ?_ ?_
    · simp only [List.append_assoc, List.singleton_append] at this
      exact this
    · intro i
      show (union acc.1 s.poss[x]).getLsbD i = true ↔ _
      rw [bit_union, Bool.or_eq_true, h1]
      constructor
      · rintro (⟨c, hc, h⟩ | h)
        · exact ⟨c, by simp [hc], h⟩
        · exact ⟨x, by simp, h⟩
      · rintro ⟨c, hc, h⟩
        rw [List.mem_append, List.mem_singleton] at hc
        rcases hc with hc | rfl
        · exact Or.inl ⟨c, hc, h⟩
        · exact Or.inr h
    · intro i hb
      have hb : (union acc.2 (inter acc.1 s.poss[x])).getLsbD i = false := hb
      rw [bit_union, bit_inter, Bool.or_eq_false_iff] at hb
      have hx : s.poss[x].getLsbD i = true → ∀ c ∈ pre, s.poss[c].getLsbD i = true → False := by
        intro hx c hc h
        have := (h1 i).mpr ⟨c, hc, h⟩
        rw [this, hx] at hb
        simp at hb
      intro c hc c' hc' h h'
      rw [List.mem_append, List.mem_singleton] at hc hc'
      rcases hc with hc | rfl <;> rcases hc' with hc' | rfl
      · exact h2 i hb.1 c hc c' hc' h h'
      · exact (hx h' c hc h).elim
      · exact (hx h c' hc' h').elim
      · rfl

theorem open_of_poss {s : Gen} (hi : Inv s) {c : Fin 81} {i : Nat} (h : s.poss[c].getLsbD i = true) : s.grid[c] = 0 := by
  by_contra hne
  rw [hi.empty c hne] at h
  simp at h

theorem houseSingles_spec {s : Gen} (hi : Inv s) : ∀ (cells : List (Fin 81)) (singles : DigitSet)
    (stack : List Candidate), AllOpen s stack → (∀ t, Sat s t → StackSat stack t) →
    (∀ c ∈ cells, ∀ d : Digit, singles.getLsbD d.val = true → s.poss[c].getLsbD d.val = true →
      ∀ t, Sat s t → t[c] = d.get) →
    Res.Post (s.houseSingles cells singles stack)
      (fun st => AllOpen s st ∧ ∀ t, Sat s t → StackSat st t) (∀ t, ¬ Sat s t) := by
  intro cells
  induction cells with
  | nil => intro singles stack h1 h2 _; exact ⟨h1, h2⟩
  | cons x xs ih =>
    intro singles stack h1 h2 h3
    unfold Gen.houseSingles
    have hf : Fits 9 (inter s.poss[x] singles) := (hi.fits x).inter_left
    have h3' : ∀ c ∈ xs, ∀ d : Digit, singles.getLsbD d.val = true → s.poss[c].getLsbD d.val = true →
      ∀ t, Sat s t → t[c] = d.get := fun c hc => h3 c (by simp [hc])
    rcases uniqueItem_spec (by omega) (by omega) (by omega) hf with ⟨h, e⟩ | ⟨d, h, e⟩ | ⟨h, e⟩
    · simp only [e, Res.ok_bind]
      exact ih singles stack h1 h2 h3'
    · simp only [e, Res.ok_bind]
      have hd := (h d.val).mpr rfl
      rw [bit_inter, Bool.and_eq_true] at hd
      have ho : AllOpen s (⟨x, d⟩ :: stack) := by
        intro y hy
        rcases List.mem_cons.mp hy with rfl | hy
        · exact open_of_poss hi hd.1
        · exact h1 y hy
      have hst : ∀ t, Sat s t → StackSat (⟨x, d⟩ :: stack) t := by
        intro t ht y hy
        rcases List.mem_cons.mp hy with rfl | hy
        · exact h3 x (by simp) d hd.2 hd.1 t ht
        · exact h2 t ht y hy
      split
      · exact ⟨ho, hst⟩
      · refine ih _ _ ho hst ?_
        intro c hc d' hd'
        rw [bit_without, Bool.and_eq_true] at hd'
        exact h3' c hc d' hd'.1
    · simp only [e, Res.ok_bind]
      intro t ht
      obtain ⟨i, hi1, j, hj1, hij⟩ := Finset.one_lt_card.mp h
      have hi2 := mem_elems.mp hi1
      have hj2 := mem_elems.mp hj1
      have hi3 := hf i hi2
      have hj3 := hf j hj2
      rw [bit_inter, Bool.and_eq_true] at hi2 hj2
      have e1 := h3 x (by simp) ⟨i, hi3⟩ hi2.2 hi2.1 t ht
      have e2 := h3 x (by simp) ⟨j, hj3⟩ hj2.2 hj2.1 t ht
      rw [e1] at e2
      exact hij (congrArg Fin.val (Digit.get_inj e2))

theorem findHiddenSingles_spec {s : Gen} (hi : Inv s) (hf : Fresh s) : ∀ (houses : List (Fin 27))
    (stack : List Candidate), AllOpen s stack → (∀ t, Sat s t → StackSat stack t) →
    Res.Post (s.findHiddenSingles houses stack)
      (fun st => AllOpen s st ∧ ∀ t, Sat s t → StackSat st t) (∀ t, ¬ Sat s t) := by
  intro houses
  induction houses with
  | nil => intro stack h1 h2; exact ⟨h1, h2⟩
  | cons h houses ih =>
    intro stack h1 h2
    unfold Gen.findHiddenSingles
    rw [items_eq (by omega) (by omega) (houseCells_fits h), Res.ok_bind]
    have hmem : ∀ c, c ∈ mems 81 (Pos.houseCells h) ↔ InHouse h c := by
      intro c; rw [mem_mems]; exact houseCells_get h c
    obtain ⟨sc1, sc2⟩ := houseScan_spec s (mems 81 (Pos.houseCells h))
    generalize s.houseScan (mems 81 (Pos.houseCells h)) = sc at sc1 sc2
    obtain ⟨unsolved, multiple⟩ := sc
    simp only at sc1 sc2 ⊢
    -- the place of a digit in a compatible grid
    have place : ∀ t, Sat s t → ∀ d : Digit, ∃ c, InHouse h c ∧ t[c] = d.get ∧
        (s.grid[c] = d.get ∨ s.grid[c] = 0 ∧ s.poss[c].getLsbD d.val = true) := by
      intro t ht d
      obtain ⟨c, hc1, hc2⟩ := Solved.exists_inHouse ht.1 h d
      have hc2 : t[c] = d.get := by
        rw [← UInt8.toNat_inj, hc2, Digit.get_toNat]
      refine ⟨c, hc1, hc2, ?_⟩
      by_cases h0 : s.grid[c] = 0
      · obtain ⟨d', hd1, hd2⟩ := (ht.2 c).2 h0
        rw [hc2] at hd1
        have := Digit.get_inj hd1
        subst this
        exact Or.inr ⟨h0, hd2⟩
      · rw [← hc2, (ht.2 c).1 h0]
        exact Or.inl rfl
    split
    · rename_i hne
      intro t ht
      apply hne
      apply BitVec.eq_of_getLsbD_eq
      intro i _
      rw [Bool.eq_iff_iff, bit_all (by omega) (by omega), bit_union, Bool.or_eq_true]
      constructor
      · rintro (hu | hs)
        · obtain ⟨c, _, hc⟩ := (sc1 i).mp hu
          exact hi.fits c i hc
        · exact hi.fitsH h i hs
      · intro hlt
        obtain ⟨c, hc1, hc2, hc3⟩ := place t ht ⟨i, hlt⟩
        rcases hc3 with hc3 | ⟨_, hc3⟩
        · exact Or.inr ((hi.house h ⟨i, hlt⟩).mpr ⟨c, hc1, hc3⟩)
        · exact Or.inl ((sc1 i).mpr ⟨c, (hmem c).mpr hc1, hc3⟩)
    · split
      · exact ih stack h1 h2
      · refine houseSingles_spec hi _ _ stack h1 h2 ?_
        intro c hc d hd hp t ht
        rw [bit_without, Bool.and_eq_true, Bool.not_eq_true'] at hd
        obtain ⟨c', hc1, hc2, hc3⟩ := place t ht d
        rcases hc3 with hc3 | ⟨_, hc3⟩
        · exfalso
          have hne : c' ≠ c := by
            rintro rfl
            have := open_of_poss hi hp
            rw [this] at hc3
            exact Digit.get_ne_zero _ hc3.symm
          have := hf c' c d hne (sameHouse_of_inHouse h _ _ hc1 ((hmem c).mp hc)) hc3
          rw [hp] at this
          cases this
        · have := sc2 d.val hd.1 hd.2 c hc c' ((hmem c').mpr hc1) hp hc3
          have e : t[c] = t[c'] := congrArg (fun x : Fin 81 => t[x]) this
          rw [e]; exact hc2

/-- The loop that looks for a cell with few possible digits. -/
theorem minLoop_spec {s : Gen} (hi : Inv s) : ∀ (fuel cell k minPoss best : Nat), k < fuel → cell < 81 → k ≤ 80 →
    (cell + k = s.last ∨ cell + k = s.last + 81) →
    ((∃ h : best < 81, s.poss[best] ≠ 0#16) ∨
      (minPoss = 10 ∧ ∃ (x : Fin 81) (j : Nat), j ≤ k ∧ (x.val = cell + j ∨ x.val + 81 = cell + j) ∧ s.poss[x] ≠ 0#16)) →
    Res.Post (s.minLoop fuel cell minPoss best)
      (fun r => (∃ h : r.1 < 81, s.poss[r.1] ≠ 0#16) ∧ r.2 < 81) False := by
  intro fuel
  induction fuel with
  | zero => intro cell k _ _ h; omega
  | succ fuel ih =>
    intro cell k minPoss best hk hcell hk80 harc hb
    have hlast := hi.last
    unfold Gen.minLoop
    rw [dif_pos hcell]
    have hlen : (len s.poss[cell]).toNat = (elems s.poss[cell]).card := len_eq_card (by omega) _
    have hle : (elems s.poss[cell]).card ≤ 9 := card_le_nine (hi.fits ⟨cell, hcell⟩)
    simp only []
    generalize hn : (len s.poss[cell]).toNat = n at hlen ⊢
    have hzero : s.poss[cell] = 0#16 ↔ n = 0 := by
      rw [hlen, Finset.card_eq_zero, elems_eq_empty]
    by_cases hbet : n > 0 ∧ n < minPoss
    · simp only [hbet, and_self, decide_true, if_true, Bool.true_and]
      have hne : s.poss[cell] ≠ 0#16 := by
        intro h; have := hzero.mp h; omega
      split
      · exact ⟨⟨hcell, hne⟩, hcell⟩
      · rename_i hstop
        have hnl : cell ≠ s.last := by
          intro h; apply hstop; simp [h]
        refine ih _ (k - 1) n cell (by omega) ?_ (by omega) ?_ (Or.inl ⟨hcell, hne⟩)
        · split <;> omega
        · split <;> omega
    · simp only [hbet, decide_false, Bool.false_eq_true, if_false, Bool.false_and, Bool.false_or]
      split
      · rename_i hstop
        have hnl : cell = s.last := by simpa using hstop
        rcases hb with hb | ⟨hm, x, j, hj, hx, hp⟩
        · exact ⟨hb, hcell⟩
        · exfalso
          have hn0 : n = 0 := by omega
          have hk0 : k = 0 := by omega
          have : x.val = cell := by omega
          apply hp
          have e : s.poss[x] = s.poss[cell] := by
            show s.poss[x.val] = _
            simp only [this]
          rw [e]; exact hzero.mpr hn0
      · rename_i hstop
        have hnl : cell ≠ s.last := by
          intro h; apply hstop; simp [h]
        refine ih _ (k - 1) minPoss best (by omega) ?_ (by omega) ?_ ?_
        · split <;> omega
        · split <;> omega
        · rcases hb with hb | ⟨hm, x, j, hj, hx, hp⟩
          · exact Or.inl hb
          · refine Or.inr ⟨hm, x, j - 1, ?_⟩
            have hn0 : n = 0 := by omega
            have hxc : x.val ≠ cell := by
              intro this
              apply hp
              have e : s.poss[x] = s.poss[cell] := by
                show s.poss[x.val] = _
                simp only [this]
              rw [e]; exact hzero.mpr hn0
            have := x.isLt
            refine ⟨by omega, ?_, hp⟩
            split <;> omega

/-- The state with another position for the next search of a cell. -/
theorem last_inv {s : Gen} (hi : Inv s) {k : Nat} (hk : k < 81) : Inv { s with last := k } :=
  ⟨hi.fits, hi.empty, hi.opn, hi.count, hi.house, hi.fitsH, hi.range, hi.distinct, hk⟩

theorem size_last (s : Gen) (k : Nat) : size { s with last := k } = size s := by unfold size; rfl

theorem findGuess_spec {s : Gen} (hi : Inv s) (rng : Rng) (hopen : ∃ c : Fin 81, s.grid[c] = 0) :
    Res.Post (s.findGuess rng)
      (fun r => (∃ k, k < 81 ∧ r.2.1 = { s with last := k }) ∧ s.poss[r.1.cell].getLsbD r.1.digit.val = true) False := by
  obtain ⟨x, hx⟩ := hopen
  have hlast := hi.last
  have hloop := minLoop_spec hi 82 ((s.last + 1) % 81) 80 10 100 (by omega) (by omega) (by omega) (by omega)
    (Or.inr ⟨rfl, x, if (s.last + 1) % 81 ≤ x.val then x.val - (s.last + 1) % 81 else x.val + 81 - (s.last + 1) % 81, by
      have := x.isLt
      constructor
      · split <;> omega
      · constructor
        · split <;> omega
        · exact hi.opn x hx⟩)
  unfold Gen.findGuess Gen.findCellMinPoss
  cases hm : s.minLoop 82 ((s.last + 1) % 81) 10 100 with
  | err => rw [hm] at hloop; exact hloop.elim
  | panic => rw [hm] at hloop; exact hloop.elim
  | timeout => rw [hm] at hloop; exact hloop.elim
  | ok r =>
    rw [hm] at hloop
    obtain ⟨best, cell⟩ := r
    obtain ⟨⟨hb, hne⟩, hcell⟩ := hloop
    simp only at hb hne hcell
    simp only [Res.ok_bind, toFin, dif_pos hb]
    have hpos : 0 < (elems s.poss[best]).card := by
      rw [Finset.card_pos, Finset.nonempty_iff_ne_empty]
      exact fun h => hne (elems_eq_empty.mp h)
    have hfit : Fits 9 s.poss[best] := hi.fits ⟨best, hb⟩
    have hlen : (len s.poss[best]).toNat = (elems s.poss[best]).card := len_eq_card (by omega) _
    rw [show (⟨best, hb⟩ : Fin 81) = ⟨best, hb⟩ from rfl]
    have hg : genRange rng (len s.poss[best]).toNat =
        .ok (rng 0 % (elems s.poss[best]).card, fun k => rng (k + 1)) := by
      unfold genRange
      rw [hlen, if_neg (by omega)]
    show Res.Post (genRange rng (len s.poss[best]).toNat >>= fun x => _) _ _
    rw [hg, Res.ok_bind]
    simp only []
    show Res.Post (items 9 s.poss[best] >>= fun y => _) _ _
    rw [items_eq (by omega) (by omega) hfit, Res.ok_bind]
    have hlt : rng 0 % (elems s.poss[best]).card < (mems 9 s.poss[best]).length := by
      rw [length_mems hfit]; exact Nat.mod_lt _ hpos
    rw [List.getElem?_eq_getElem hlt]
    exact ⟨⟨cell, hcell, rfl⟩, mem_mems.mp (List.getElem_mem hlt)⟩

/-- What a found grid satisfies. -/
def Found (s : Gen) (stack : List Candidate) (g : Grid) : Prop :=
  Solved g ∧ Extends s.grid g ∧
    (4 < stack.length → ∀ c : Fin 81, s.grid[c] = 0 → (∃ e ∈ stack, e.cell = c) →
      ∃ e ∈ stack, e.cell = c ∧ g[c] = e.digit.get)

/-- `randomized_solve_one`. -/
theorem solveOne_spec (fuel0 : Nat) (hf0 : 1460 ≤ fuel0) : ∀ (fuel : Nat) (s : Gen) (stack : List Candidate) (rng : Rng),
    Inv s → Fresh s → AllOpen s stack → 2 * size s + (if stack = [] then 1 else 0) < fuel →
    Res.Post (Gen.solveOne fuel0 fuel s stack rng)
      (fun r => match r.1 with
        | none => ∀ t, Sat s t → ¬ StackSat stack t
        | some g => Found s stack g) False := by
  intro fuel
  induction fuel with
  | zero => intro s stack rng _ _ _ h; omega
  | succ fuel ih =>
    intro s stack rng hi hfr hao hfuel
    have hbound := size_bound hi
    have hins := insertEntries_spec fuel0 fuel0 s stack hi hfr (by omega) (by rw [if_pos hao]; omega)
    unfold Gen.solveOne
    cases hres : s.insertEntries fuel0 fuel0 stack with
    | panic => rw [hres] at hins; exact hins.elim
    | timeout => rw [hres] at hins; exact hins.elim
    | err => rw [hres] at hins; exact hins
    | ok s1 =>
      rw [hres] at hins
      obtain ⟨⟨h1, h2, h3, h4⟩, h5⟩ := hins
      simp only at h1 h2 h3 h4 h5 ⊢
      have i1 := h1.inv
      have hle := h1.size
      have hm1 : 2 * size s1 < fuel := by
        by_cases he : stack = []
        · rw [if_pos he] at hfuel; omega
        · have := h4 he hao
          omega
      -- a grid found from a later state
      have found : ∀ g, Solved g → Extends s1.grid g → Found s stack g := by
        intro g hg hx
        refine ⟨hg, Extends.trans' h1.ext hx, fun hl c h0 he => ?_⟩
        obtain ⟨a, b⟩ := h5 hl
        obtain ⟨e, e1, e2, e3⟩ := b c h0 he
        refine ⟨e, e1, e2, ?_⟩
        rw [hx c (by rw [e3]; exact Digit.get_ne_zero _), e3]
      have sat1 : ∀ t, Sat s t → StackSat stack t → Sat s1 t := fun t a b => (h3 t a b).1
      by_cases hsol : s1.isSolved = true
      · rw [if_pos hsol]
        have hfull : ∀ c : Fin 81, s1.grid[c] ≠ 0 := clueCount_full (by
          rw [← i1.count]
          unfold Gen.isSolved at hsol
          simpa using hsol)
        refine found _ ⟨fun c => ?_, fun c c' hne hs => i1.distinct c c' hne hs (hfull c)⟩ (Extends.refl' _)
        obtain ⟨d, hd⟩ := i1.range c (hfull c)
        rw [hd]; exact Digit.get_range d
      · rw [if_neg hsol]
        have hhid := findHiddenSingles_spec i1 h2 (List.finRange 27) [] (fun e he => by cases he)
          (fun t _ e he => by cases he)
        cases hres2 : s1.findHiddenSingles (List.finRange 27) [] with
        | panic => rw [hres2] at hhid; exact hhid.elim
        | timeout => rw [hres2] at hhid; exact hhid.elim
        | err =>
          rw [hres2] at hhid
          exact fun t a b => hhid t (sat1 t a b)
        | ok st =>
          rw [hres2] at hhid
          obtain ⟨a1, a2⟩ := hhid
          cases st with
          | cons e st =>
            simp only
            refine Res.Post.mono (ih s1 (e :: st) rng i1 h2 a1 (by simp only [reduceCtorEq, if_false]; omega)) ?_ id
            rintro ⟨r, rng'⟩ hr
            cases r with
            | none =>
              intro t ht hst
              exact hr t (sat1 t ht hst) (a2 t (sat1 t ht hst))
            | some g => exact found g hr.1 hr.2.1
          | nil =>
            simp only
            have hopen : ∃ c : Fin 81, s1.grid[c] = 0 := by
              by_contra hno
              apply hsol
              unfold Gen.isSolved
              rw [i1.count]
              have : clueCount s1.grid = 81 := by
                unfold clueCount
                have := List.countP_eq_length (p := fun c : Fin 81 => decide (s1.grid[c] ≠ 0)) (l := List.finRange 81)
                rw [this.mpr]
                · simp
                · intro c _
                  exact decide_eq_true (fun h => hno ⟨c, h⟩)
              rw [this]; rfl
            refine Res.Post.bind (findGuess_spec i1 rng hopen) ?_
            rintro ⟨entry, s2, rng2⟩ ⟨⟨k, hk, hs2⟩, hposs⟩
            simp only at hs2 hposs ⊢
            subst hs2
            have i2 : Inv { s1 with last := k } := last_inv i1 hk
            have f2 : Fresh { s1 with last := k } := h2
            have sz := size_last s1 k
            have hop : s1.grid[entry.cell] = 0 := open_of_poss i1 hposs
            refine Res.Post.bind (ih { s1 with last := k } [entry] rng2 i2 f2 ?_ ?_) ?_
            · intro e he
              rw [List.mem_singleton] at he
              subst he
              exact hop
            · rw [if_neg (by simp), sz]; omega
            · rintro ⟨r, rng3⟩ hr
              cases r with
              | some g => exact found g hr.1 hr.2.1
              | none =>
                simp only at hr ⊢
                have hnot : ∀ t, Sat s1 t → t[entry.cell] ≠ entry.digit.get := by
                  intro t ht he
                  refine hr t ht ?_
                  intro e hm
                  rw [List.mem_singleton] at hm
                  subst hm
                  exact he
                have hmask : ∀ t, Sat s1 t → ∀ d : Digit, t[entry.cell] = d.get →
                    entry.digitSet.getLsbD d.val = false := by
                  intro t ht d hd
                  by_contra hc
                  rw [Bool.not_eq_false, digitSet_get] at hc
                  have : d = entry.digit := Fin.ext hc
                  subst this
                  exact hnot t ht hd
                have hrem := remove_spec i2 (c := entry.cell) hop entry.digitSet []
                cases hres3 : Gen.removeImpossibilities { s1 with last := k } entry.cell entry.digitSet [] with
                | panic => rw [hres3] at hrem; exact hrem.elim
                | timeout => rw [hres3] at hrem; exact hrem.elim
                | err =>
                  rw [hres3] at hrem
                  intro t ht hst
                  have ht1 := sat1 t ht hst
                  obtain ⟨d, d1, d2⟩ := (ht1.2 entry.cell).2 hop
                  have d3 := hmask t ht1 d d1
                  have : (without s1.poss[entry.cell] entry.digitSet).getLsbD d.val = true := by
                    rw [bit_without, d2, d3]; rfl
                  rw [show without s1.poss[entry.cell] entry.digitSet = 0#16 from hrem] at this
                  simp at this
                | ok r =>
                  rw [hres3] at hrem
                  obtain ⟨s3, st3⟩ := r
                  obtain ⟨b1, b2, b3⟩ := hrem
                  simp only at b1 b2 b3 ⊢
                  have hsub : ∀ (x : Fin 81) (i : Nat), s3.poss[x].getLsbD i = true → s1.poss[x].getLsbD i = true := by
                    subst b1
                    exact withPoss_sub { s1 with last := k } entry.cell entry.digitSet
                  have hgrid : s3.grid = s1.grid := by rw [b1]; rfl
                  have hlt : size s3 < size s1 := by
                    refine size_lt hsub entry.cell entry.digit.val hposs ?_
                    rw [b1, withPoss_get, if_pos rfl, bit_without, (digitSet_get _ _).mpr rfl]
                    simp
                  have hao3 : AllOpen s3 st3 := by
                    intro e he
                    rw [hgrid]
                    rcases b3 with rfl | ⟨d, rfl, _⟩
                    · cases he
                    · rw [List.mem_singleton] at he
                      subst he
                      exact hop
                  have sat3 : ∀ t, Sat s1 t → Sat s3 t ∧ StackSat st3 t := by
                    intro t ht
                    have h3 : Sat s3 t := by
                      rw [b1]
                      exact withPoss_sat (s := { s1 with last := k }) ht (hmask t ht)
                    refine ⟨h3, ?_⟩
                    intro e he
                    rcases b3 with rfl | ⟨d, rfl, hd⟩
                    · cases he
                    · rw [List.mem_singleton] at he
                      subst he
                      obtain ⟨d', d1, d2⟩ := (h3.2 entry.cell).2 (by rw [hgrid]; exact hop)
                      rw [b1, withPoss_get, if_pos rfl] at d2
                      have : d' = d := Fin.ext ((hd _).mp d2)
                      subst this
                      exact d1
                  refine Res.Post.mono (ih s3 st3 rng3 b2 (fresh_of_sub h2 hgrid hsub) hao3 ?_) ?_ id
                  · split <;> omega
                  · rintro ⟨r, rng4⟩ hr4
                    cases r with
                    | none =>
                      intro t ht hst
                      obtain ⟨x, y⟩ := sat3 t (sat1 t ht hst)
                      exact hr4 t x y
                    | some g => exact found g hr4.1 (by rw [← hgrid]; exact hr4.2.1)

/-- The initial state. -/
theorem new_inv : Inv Gen.new := by
  have hg : ∀ c : Fin 81, Gen.new.grid[c] = 0 := by decide +kernel
  have hp : ∀ c : Fin 81, Gen.new.poss[c] = ALL 16 9 := by decide +kernel
  have hh : ∀ h : Fin 27, Gen.new.house[h] = NONE 16 := by decide +kernel
  refine ⟨?_, ?_, ?_, by decide +kernel, ?_, ?_, ?_, ?_, by decide⟩
  · intro c; rw [hp]; exact fits_all (by omega) (by omega)
  · intro c hc; exact absurd (hg c) hc
  · intro c _; rw [hp]; decide
  · intro h d
    rw [hh, bit_none]
    constructor
    · intro h; cases h
    · rintro ⟨c, _, hc⟩
      rw [hg] at hc
      exact absurd hc.symm (Digit.get_ne_zero d)
  · intro h; rw [hh]; exact fits_none
  · intro c hc; exact absurd (hg c) hc
  · intro c _ _ _ hc; exact absurd (hg c) hc

theorem new_fresh : Fresh Gen.new := by
  have hg : ∀ c : Fin 81, Gen.new.grid[c] = 0 := by decide +kernel
  intro c c' d _ _ hd
  rw [hg] at hd
  exact absurd hd.symm (Digit.get_ne_zero d)

theorem new_sat {t : Grid} (ht : Solved t) : Sat Gen.new t := by
  have hg : ∀ c : Fin 81, Gen.new.grid[c] = 0 := by decide +kernel
  have hp : ∀ c : Fin 81, Gen.new.poss[c] = ALL 16 9 := by decide +kernel
  refine ⟨ht, fun c => ⟨fun h => absurd (hg c) h, fun _ => ?_⟩⟩
  obtain ⟨d, hd⟩ := Digit.exists_get (ht.1 c)
  refine ⟨d, hd, ?_⟩
  rw [hp, bit_all (by omega) (by omega)]
  exact d.isLt

end Verif.Generator
