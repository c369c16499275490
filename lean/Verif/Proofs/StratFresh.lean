import Verif.Proofs.StratNodup

/-! # The strategy solver: no digit is entered in a cell that already has one -/
namespace Verif.Strat

open Bitset Generator

variable {C : Fin 81 → Prop}

/-- No deduction enters a digit in the cells `C`. -/
def Avoids (C : Fin 81 → Prop) (s : Solver) : Prop := ∀ d ∈ s.deductions, ∀ e, d.single = some e → ¬ C e.cell

theorem Avoids.fr {fn : Bool} {s s' : Solver} (h : Avoids C s) (hf : Fr fn s s') (hc : Cov C s.cp s.grid) :
    Avoids C s' ∧ Cov C s'.cp s'.grid := by
  obtain ⟨ext, e1, e2, e3⟩ := hf.fresh
  refine ⟨fun d hd e he => ?_, hc.keep hf.sub e2.mono⟩
  rw [e1] at hd
  rcases List.mem_append.mp hd with hd | hd
  · exact h d hd e he
  · obtain ⟨x, hx, rfl⟩ := List.mem_map.mp hd
    obtain rfl : x = e := Option.some.inj he
    intro hC
    rcases hc x.cell hC with h4 | h4
    · have := e3 x hx
      rw [h4] at this
      simp at this
    · exact h4 (e2.before _ (List.mem_map_of_mem hx))

theorem Avoids.of_eq {s s' : Solver} (h : Avoids C s) (he : s'.deductions = s.deductions) : Avoids C s' := by
  unfold Avoids
  rw [he]
  exact h

/-- `remove_impossibilities` enters at most the last digit of the cell. -/
theorem removeImp_push {s : Solver} (hf : ∀ c : Fin 81, Fits 9 s.cp[c]) {c : Fin 81} {m : DigitSet} {r : Solver × Bool}
    (he : s.removeImpossibilities c m true = .ok r) : r.1.deductions = s.deductions ∨
      ∃ d : Digit, (∀ i, (without s.cp[c] m).getLsbD i = true ↔ i = d.val) ∧
        r.1.deductions = s.deductions ++ [.nakedSingles ⟨c, d⟩] := by
  unfold Solver.removeImpossibilities at he
  simp only [if_true] at he
  rcases uniqueItem_spec (n := 9) (by omega) (by omega) (by omega) ((hf c).without (b := m))
    with ⟨_, e⟩ | ⟨d, hu, e⟩ | ⟨_, e⟩
  · simp only [e, Res.ok_bind] at he
    cases he
    exact Or.inl rfl
  · simp only [e, Res.ok_bind] at he
    rcases push_cases { s with cp := s.cp.set c (without s.cp[c] m) } ⟨c, d⟩ (.nakedSingles ⟨c, d⟩) (Or.inl rfl)
      with ⟨_, e⟩ | ⟨h0, e⟩ | ⟨_, _, e⟩ <;> rw [e] at he <;> cases he
    · exact Or.inl rfl
    · exact Or.inr ⟨d, hu, rfl⟩
    · exact Or.inl rfl
  · simp only [e, Res.ok_bind] at he
    cases he
    exact Or.inl rfl

/-- The next entries, when there are few: the cells `C` wait with almost all digits. -/
def Few (C : Fin 81 → Prop) (s : Solver) : Prop :=
  ∀ c, C c → s.cp[c] = 0#16 ∨ ∃ j, s.cpNext ≤ j ∧ j < 4 ∧ (∃ e, s.deduced[j]? = some e ∧ e.cell = c) ∧
    ∀ d : Digit, (∀ e ∈ s.deduced.take s.cpNext, e.digit ≠ d) → s.cp[c].getLsbD d.val = true

theorem two_left {l : List Digit} (h : l.length ≤ 3) (x : Digit) : ∃ d : Digit, d ≠ x ∧ d ∉ l := by
  by_contra hc
  have hall : (Finset.univ : Finset Digit) ⊆ (x :: l).toFinset := by
    intro d _
    rw [List.mem_toFinset, List.mem_cons]
    by_contra hd
    rw [not_or] at hd
    exact hc ⟨d, hd.1, hd.2⟩
  have h1 := Finset.card_le_card hall
  have h2 := List.toFinset_card_le (x :: l)
  have h3 : (Finset.univ : Finset Digit).card = 9 := by simp [Digit]
  rw [List.length_cons] at h2
  omega

/-- The same while the digit of the last entry is removed elsewhere. -/
theorem neighbors_few {k : Nat} {s : Solver} (h : W k s) {e : Candidate}
    (he : ∃ j, j + 1 = s.cpNext ∧ s.deduced[j]? = some e) (ha : Avoids C s)
    (hfew : ∀ c, C c → s.cp[c] = 0#16 ∨ ∃ j, s.cpNext ≤ j ∧ j < 4 ∧ (∃ e, s.deduced[j]? = some e ∧ e.cell = c) ∧
      ∀ d : Digit, (∀ e ∈ s.deduced.take s.cpNext, e.digit ≠ d) → s.cp[c].getLsbD d.val = true)
    (cells : List (Fin 81)) {r : Solver × Bool}
    (hr : s.removeFromNeighbors e.digitSet true cells = .ok r) : Avoids C r.1 ∧ Few C r.1 := by
  have key := tryEach_post (early := true)
    (f := fun s cell => if overlaps e.digitSet s.cp[cell] then s.removeImpossibilities cell e.digitSet true else .ok (s, true))
    (fun _ s1 => W k s1 ∧ (∃ j, j + 1 = s1.cpNext ∧ s1.deduced[j]? = some e) ∧ Avoids C s1 ∧ Few C s1) cells s
    ⟨h, he, ha, hfew⟩ ?_
  · unfold Solver.removeFromNeighbors at hr
    rw [hr] at key
    obtain ⟨_, _, _, h1, h2⟩ := key.1
    exact ⟨h1, h2⟩
  · rintro c _ s1 ⟨h1, ⟨j, hj, hje⟩, h2, h3⟩
    split
    · have hw := removeImp_w h1 c e.digitSet true
      cases hx : s1.removeImpossibilities c e.digitSet true with
      | ok r1 =>
        rw [hx] at hw
        obtain ⟨g1, g2, g3, g4, _, _⟩ := hw
        have hp := removeImp_push h1.fits hx
        obtain ⟨ext, f1, f2, _⟩ := g2.ded
        have hlen := h1.nextLe
        have hjl : j < s1.deduced.length := by omega
        have htake : r1.1.deduced.take r1.1.cpNext = s1.deduced.take s1.cpNext := by
          rw [g4, f1, List.take_append_of_le_length hlen]
        have hfew1 : Few C r1.1 := by
          intro c' hc'
          rcases h3 c' hc' with h4 | ⟨j', j1, j2, ⟨e', j3, j4⟩, j5⟩
          · exact Or.inl (g2.sub.zero h4)
          · right
            refine ⟨j', by rw [g4]; exact j1, j2, ⟨e', ?_, j4⟩, fun d hd => ?_⟩
            · rw [f1, List.getElem?_append_left (List.getElem?_eq_some_iff.mp j3).1]
              exact j3
            · rw [htake] at hd
              have h5 := j5 d hd
              rw [g3, get_set_fin]
              split
              · rename_i hcc
                subst hcc
                rw [bit_without, h5]
                have hne : e.digit ≠ d := hd e (by
                  rw [List.mem_take_iff_getElem]
                  obtain ⟨h6, h7⟩ := List.getElem?_eq_some_iff.mp hje
                  exact ⟨j, by omega, h7⟩)
                have : e.digitSet.getLsbD d.val = false := by
                  by_contra h8
                  rw [Bool.not_eq_false] at h8
                  have h8 : (asSet 16 e.digit.val).getLsbD d.val = true := h8
                  rw [bit_asSet (by omega)] at h8
                  exact hne (Fin.ext h8)
                rw [this]
                rfl
              · exact h5
        refine ⟨g1, ⟨j, by rw [g4]; exact hj, ?_⟩, ?_, hfew1⟩
        · rw [f1, List.getElem?_append_left hjl]
          exact hje
        · rcases hp with hp | ⟨d, hu, hp⟩
          · exact h2.of_eq hp
          · intro x hx' y hy
            rw [hp] at hx'
            rcases List.mem_append.mp hx' with hx' | hx'
            · exact h2 x hx' y hy
            · rw [List.mem_singleton] at hx'
              subst hx'
              cases hy
              intro hC
              have hcp : r1.1.cp[c] = without s1.cp[c] e.digitSet := by rw [g3, get_set_fin, if_pos rfl]
              rcases hfew1 c hC with h4 | ⟨j', j1, j2, _, j5⟩
              · rw [hcp] at h4
                have := (hu d.val).mpr rfl
                rw [h4] at this
                simp at this
              · obtain ⟨d', k1, k2⟩ := two_left (l := (r1.1.deduced.take r1.1.cpNext).map Candidate.digit)
                  (by rw [List.length_map, List.length_take]; omega) d
                have h6 := j5 d' (fun e' he' h7 => k2 (List.mem_map.mpr ⟨e', he', h7⟩))
                rw [hcp] at h6
                exact k1 (Fin.ext ((hu _).mp h6))
      | err => rw [hx] at hw; cases hw
      | panic => rw [hx] at hw; cases hw
      | timeout => rw [hx] at hw; cases hw
    · exact ⟨h1, ⟨j, hj, hje⟩, h2, h3⟩

theorem insertSingly_few : ∀ (fuel : Nat) (s : Solver) (r : Solver × Bool), W 0 s → Avoids C s → Few C s →
    Solver.insertSingly true fuel s = .ok r → Avoids C r.1 ∧ (r.2 = true → Few C r.1) := by
  intro fuel
  induction fuel with
  | zero => intro s r _ _ _ he; cases he
  | succ fuel ih =>
    intro s r h ha hfew he
    unfold Solver.insertSingly at he
    split at he
    · cases he
      exact ⟨ha, fun _ => hfew⟩
    · rename_i e hee
      have hlt := cpNext_lt hee
      rw [advance_eq h (by omega) hlt, Res.ok_bind] at he
      have hw := advanced_w h hlt
      -- the other cells keep waiting
      have hnext : ∀ c, C c → s.cp[c] = 0#16 ∨ c = e.cell ∨ ∃ j, s.cpNext + 1 ≤ j ∧ j < 4 ∧
          (∃ e, s.deduced[j]? = some e ∧ e.cell = c) ∧
          ∀ d : Digit, (∀ e ∈ s.deduced.take (s.cpNext + 1), e.digit ≠ d) → s.cp[c].getLsbD d.val = true := by
        intro c hc
        rcases hfew c hc with h1 | ⟨j, j1, j2, ⟨e', j3, j4⟩, j5⟩
        · exact Or.inl h1
        · by_cases hj : j = s.cpNext
          · subst hj
            rw [hee] at j3
            cases j3
            exact Or.inr (Or.inl j4.symm)
          · refine Or.inr (Or.inr ⟨j, by omega, j2, ⟨e', j3, j4⟩, fun d hd => j5 d fun x hx => hd x ?_⟩)
            exact List.take_subset_take_left _ (by omega) hx
      by_cases h0 : isEmpty s.advanced.cp[e.cell] = true
      · rw [if_pos h0] at he
        have h0' := (isEmpty_cp _ _).mp h0
        refine ih _ r hw ha ?_ he
        intro c hc
        rcases hnext c hc with h1 | h1 | h1
        · exact Or.inl h1
        · subst h1; exact Or.inl h0'
        · exact Or.inr h1
      · rw [if_neg h0] at he
        have h0' : s.advanced.cp[e.cell] ≠ 0#16 := fun hc => h0 ((isEmpty_cp _ _).mpr hc)
        split at he
        · cases he
          exact ⟨ha, fun h => by cases h⟩
        · rw [insert_eq hw, Res.ok_bind] at he
          have hwe := entered_w hw h0'
          obtain ⟨⟨s2, ok⟩, h1, h2⟩ := bind_ok he
          have hn := removeFromNeighbors_w hwe e.digitSet true (Pos.neighbors e.cell)
          rw [h1] at hn
          have hfe : Few C (s.advanced.entered e) := by
            intro c hc
            have hcp : (s.advanced.entered e).cp = s.cp.set e.cell.val (NONE 16) e.cell.isLt := rfl
            rcases hnext c hc with h3 | h3 | ⟨j, j1, j2, j3, j5⟩
            · left
              exact (sub_set_none s.cp e.cell).zero h3
            · subst h3
              left
              exact cp_entered _ _
            · by_cases hce : e.cell = c
              · subst hce
                left
                exact cp_entered _ _
              · right
                refine ⟨j, j1, j2, j3, fun d hd => ?_⟩
                rw [hcp, get_set_fin, if_neg hce]
                exact j5 d hd
          obtain ⟨k1, k2⟩ := neighbors_few (r := (s2, ok)) hwe ⟨s.cpNext, rfl, hee⟩ (ha.of_eq rfl) hfe _ h1
          cases ok
          · cases h2
            exact ⟨k1, fun h => by cases h⟩
          · simp only [Bool.not_true, Bool.false_eq_true, if_false] at h2
            split at h2
            · cases h2
            · split at h2
              · cases h2
                exact ⟨k1, fun _ => k2⟩
              · exact ih s2 r hn.1 k1 k2 h2

theorem batchInsert_all : ∀ (fuel : Nat) (s s1 : Solver), W 0 s → Solver.batchInsert fuel s = .ok (s1, true) →
    s1.cpNext = s1.deduced.length := by
  intro fuel
  induction fuel with
  | zero => intro s s1 _ he; cases he
  | succ fuel ih =>
    intro s s1 h he
    unfold Solver.batchInsert at he
    split at he
    · rename_i hnone
      rw [List.getElem?_eq_none_iff] at hnone
      cases he
      have := h.nextLe
      omega
    · rename_i e hee
      have hlt := cpNext_lt hee
      rw [advance_eq h (by omega) hlt, Res.ok_bind] at he
      have ha := advanced_w h hlt
      by_cases h0 : isEmpty s.advanced.cp[e.cell] = true
      · rw [if_pos h0] at he
        exact ih _ _ ha he
      · rw [if_neg h0] at he
        have h0' : s.advanced.cp[e.cell] ≠ 0#16 := fun hc => h0 ((isEmpty_cp _ _).mpr hc)
        split at he
        · cases he
        · rw [insert_eq ha, Res.ok_bind] at he
          exact ih _ _ (entered_w ha h0') he

/-- A batch, when the cells `C` wait. -/
theorem batch_cov {fuel : Nat} (hf : 1000 ≤ fuel) {s : Solver} (h : W 0 s) (ha : Avoids C s)
    (hwait : ∀ c, C c → s.cp[c] = 0#16 ∨ ∃ j, s.cpNext ≤ j ∧ ∃ e, s.deduced[j]? = some e ∧ e.cell = c) {r : Solver × Bool}
    (he : Solver.batch fuel true s = .ok r) : Avoids C r.1 ∧ (r.2 = true → W 0 r.1 ∧ Cov C r.1.cp r.1.grid) := by
  unfold Solver.batch andThen at he
  obtain ⟨⟨s1, ok⟩, h1, h2⟩ := bind_ok he
  have hb := batchInsert_w false (k := 0) (by omega) fuel s h (by omega)
  rw [h1] at hb
  obtain ⟨g1, g2, g3⟩ := hb
  obtain ⟨ext, f1, f2, f3⟩ := g2.ded
  have hd : s1.deductions = s.deductions := by rw [f2, f3 rfl]; simp
  have ha1 : Avoids C s1 := ha.of_eq hd
  cases ok
  · cases h2
    exact ⟨ha1, fun h => by cases h⟩
  · simp only [if_true] at h2
    have hall : s1.cpNext = s1.deduced.length := batchInsert_all fuel s s1 h h1
    have hcov : Cov C s1.cp s1.grid := by
      intro c hc
      rcases hwait c hc with h3 | ⟨j, j1, e, j2, rfl⟩
      · exact Or.inl (g2.sub.zero h3)
      · left
        have hjl := (List.getElem?_eq_some_iff.mp j2).1
        have j3 : s1.deduced[j]? = some e := by
          rw [f1, List.getElem?_append_left hjl]
          exact j2
        exact (g3 rfl).1 j j1 (by show j < s1.cpNext; rw [hall]; exact (List.getElem?_eq_some_iff.mp j3).1) e j3
    have hr := batchRemove_w g1 true
    rw [h2] at hr
    obtain ⟨k1, k2⟩ := ha1.fr hr.2.1 hcov
    exact ⟨k1, fun _ => ⟨hr.1, k2⟩⟩

theorem insertLoop_few {fuel0 : Nat} (hf0 : 1000 ≤ fuel0) : ∀ (fuel : Nat) (s : Solver) (r : Solver × Bool), 1000 ≤ s.cpNext + fuel →
    W 0 s → Avoids C s →
    (Few C s ∨ (4 < s.deduced.length - s.cpNext ∧
      ∀ c, C c → ∃ j, s.cpNext ≤ j ∧ ∃ e, s.deduced[j]? = some e ∧ e.cell = c)) →
    Solver.insertLoop fuel0 true fuel s = .ok r → Avoids C r.1 := by
  intro fuel
  induction fuel with
  | zero => intro s r _ _ _ _ he; cases he
  | succ fuel ih =>
    intro s r hfl h ha hw he
    have hle := h.nextLe
    unfold Solver.insertLoop at he
    rw [if_neg (by omega)] at he
    dsimp only at he
    split at he
    · cases he; exact ha
    · split at he
      · have hfew : Few C s := by
          rcases hw with hw | hw
          · exact hw
          · omega
        unfold andThen at he
        obtain ⟨⟨s1, ok⟩, h1, h2⟩ := bind_ok he
        obtain ⟨k1, k2⟩ := insertSingly_few _ _ _ h ha hfew h1
        have hs := insertSingly_w true (k := 0) (by omega) fuel0 s h (by omega)
        rw [h1] at hs
        cases ok
        · cases h2
          exact k1
        · have hn : s.cpNext < s1.cpNext := (hs.2.2 rfl).2 (by omega)
          simp only [if_true] at h2
          exact ih s1 r (by omega) hs.1 k1 (Or.inl (k2 rfl)) h2
      · unfold andThen at he
        obtain ⟨⟨s1, ok⟩, h1, h2⟩ := bind_ok he
        obtain ⟨k1, k2⟩ := batch_cov hf0 h ha (fun c hc => by
          rcases hw with hw | ⟨_, hw⟩
          · rcases hw c hc with hw | ⟨j, j1, _, j3, _⟩
            · exact Or.inl hw
            · exact Or.inr ⟨j, j1, j3⟩
          · exact Or.inr (hw c hc)) h1
        have hs := batch_w (k := 0) (by omega) true fuel0 s h (by omega)
        rw [h1] at hs
        cases ok
        · cases h2
          exact k1
        · obtain ⟨k3, k4⟩ := k2 rfl
          have hn : s.cpNext < s1.cpNext := (hs.2.2 rfl).2 (by omega)
          simp only [if_true] at h2
          have hl := insertLoop_w (k := 0) (by omega) true (fuel0 := fuel0) (by omega) fuel s1 k3 (by omega)
          rw [h2] at hl
          exact (k1.fr hl.2.1 k4).1

/-- The first update of a new solver. -/
theorem update_fresh {s : Solver} (h : W 0 s) (hd : s.deductions = []) (hcp : ∀ c : Fin 81, s.cp[c] = ALL 16 9)
    (hn : s.cpNext = 0) (hE : s.cpElim = 0) (hC : ∀ c, C c → ∃ e ∈ s.deduced, e.cell = c)
    (hX : ∀ e ∈ s.eliminated, ¬ C e.cell) {fuel : Nat} (hf : 1000 ≤ fuel) {r : Solver × Bool}
    (he : s.update fuel true true = .ok r) : Avoids C r.1 := by
  unfold Solver.update at he
  rw [hE] at he
  simp only [Nat.not_lt_zero, if_false, List.drop_zero] at he
  unfold andThen at he
  obtain ⟨⟨s1, ok⟩, h1, h2⟩ := bind_ok he
  have key := tryEach_post (early := true)
    (f := fun (s : Solver) (e : Candidate) => s.removeImpossibilities e.cell e.digitSet true)
    (fun l s1 => (∀ e ∈ l, ¬ C e.cell) ∧ W 0 s1 ∧ Fr true s s1 ∧ s1.cpNext = 0 ∧ Avoids C s1 ∧ (∀ c, C c → s1.cp[c] = s.cp[c]) ∧
      ∀ e ∈ s.eliminated, e ∈ l ∨ s1.cp[e.cell].getLsbD e.digit.val = false)
    s.eliminated s ⟨hX, h, Fr.refl s, hn, (by unfold Avoids; rw [hd]; simp), fun _ _ => rfl, fun _ h => Or.inl h⟩ (by
      rintro e l s1 ⟨k1, k2, k3, k4, k5, k6, k7⟩
      have hw := removeImp_w k2 e.cell e.digitSet true
      cases hx : s1.removeImpossibilities e.cell e.digitSet true with
      | ok r1 =>
        rw [hx] at hw
        obtain ⟨g1, g2, g3, g4, _, _⟩ := hw
        refine ⟨fun x hx => k1 x (List.mem_cons_of_mem _ hx), g1, k3.trans g2, g4.trans k4, ?_, fun c hc => ?_, fun e' he' => ?_⟩
        · rcases removeImp_push k2.fits hx with hp | ⟨d, _, hp⟩
          · exact k5.of_eq hp
          · intro x hx' y hy
            rw [hp] at hx'
            rcases List.mem_append.mp hx' with hx' | hx'
            · exact k5 x hx' y hy
            · rw [List.mem_singleton] at hx'
              subst hx'
              cases hy
              exact k1 e (by simp)
        · rw [g3, get_set_fin, if_neg]
          · exact k6 c hc
          · rintro rfl
            exact k1 e (by simp) hc
        · rcases k7 e' he' with h5 | h5
          · rcases List.mem_cons.mp h5 with rfl | h5
            · right
              rw [g3, get_set_fin, if_pos rfl, bit_without, bit_digitSet]
              simp
            · exact Or.inl h5
          · right
            by_contra hc
            rw [Bool.not_eq_false] at hc
            have := g2.sub _ _ hc
            rw [h5] at this
            cases this
      | err => rw [hx] at hw; cases hw
      | panic => rw [hx] at hw; cases hw
      | timeout => rw [hx] at hw; cases hw)
  rw [h1] at key
  obtain ⟨⟨_, _, k2, k3, k4, k5, k6, _⟩, k7⟩ := key
  cases ok
  · cases h2
    exact k5
  · simp only [if_true] at h2
    obtain ⟨_, _, _, _, _, _, k7⟩ := k7 rfl
    have k4 : s1.cpNext = 0 := k4
    unfold Solver.insertEntries at h2
    have hnx : s1.cpNext = s1.hsNext := k2.next
    rw [decide_eq_true (p := ({ s1 with cpElim := s1.eliminated.length % 65536 } : Solver).cpNext =
      ({ s1 with cpElim := s1.eliminated.length % 65536 } : Solver).hsNext) hnx, Res.assert_true, Res.ok_bind] at h2
    simp only [decide_false, Bool.false_eq_true, if_false] at h2
    have hw : W 0 { s1 with cpElim := s1.eliminated.length % 65536 } :=
      ⟨k2.fits, k2.fitsH, k2.fitsP, k2.count, k2.next, k2.nextLe, Nat.mod_le _ _, k2.hpElimLe, k2.hpNextLe, k2.budget,
        k2.range, k2.last, ⟨s1.eliminated.length, Nat.mod_le _ _, Nat.le_refl _, by
          rw [List.take_length, k3.elim]
          exact fun e he => (k7 e he).resolve_left (by simp)⟩, k2.hpEx⟩
    obtain ⟨ext, f1, _⟩ := k3.ded
    have hidx : ∀ c, C c → ∃ j, j < s.deduced.length ∧ ∃ e, s1.deduced[j]? = some e ∧ e.cell = c := by
      intro c hc
      obtain ⟨e, he, hec⟩ := hC c hc
      obtain ⟨j, hj⟩ := List.mem_iff_getElem?.mp he
      have hjl := (List.getElem?_eq_some_iff.mp hj).1
      exact ⟨j, hjl, e, by rw [f1, List.getElem?_append_left hjl]; exact hj, hec⟩
    refine insertLoop_few hf fuel { s1 with cpElim := s1.eliminated.length % 65536 } r (by omega) hw (k5.of_eq rfl) ?_ h2
    have hlen : s.deduced.length ≤ s1.deduced.length := k3.deduced_le
    by_cases h4 : s1.deduced.length ≤ 4
    · left
      intro c hc
      obtain ⟨j, j1, j2⟩ := hidx c hc
      refine Or.inr ⟨j, ?_, by omega, j2, fun d _ => ?_⟩
      · show s1.cpNext ≤ j
        omega
      · show s1.cp[c].getLsbD d.val = true
        rw [k6 c hc, hcp c]
        exact (bit_all (by omega) (by omega) _).mpr d.isLt
    · right
      refine ⟨?_, fun c hc => ?_⟩
      · show 4 < s1.deduced.length - s1.cpNext
        omega
      · obtain ⟨j, j1, j2⟩ := hidx c hc
        exact ⟨j, by show s1.cpNext ≤ j; omega, j2⟩

/-- A solver as a constructor makes it. -/
structure New (s : Solver) : Prop where
  cp : ∀ c : Fin 81, s.cp[c] = ALL 16 9
  next : s.cpNext = 0
  cpE : s.cpElim = 0

theorem Reaches.new {looked : Bool} {s : Solver} {g : Grid} {X : Fin 81 → Digit → Prop} (h : Reaches looked s g X) :
    (New s ∧ ∀ c d, X c d → g[c] = 0) ∨ ∀ c : Fin 81, g[c] ≠ 0 → s.grid[c] ≠ 0 := by
  induction h with
  | @sudoku g s hg he =>
    unfold Solver.fromSudoku at he
    obtain ⟨l, _, h2⟩ := bind_ok he
    cases h2
    exact Or.inl ⟨⟨fun c => Vector.getElem_replicate _, rfl, rfl⟩, fun _ _ h => h.elim⟩
  | @gridState state s he =>
    unfold Solver.fromGridState at he
    obtain ⟨⟨a, b⟩, h1, h2⟩ := bind_ok he
    cases h2
    refine Or.inl ⟨⟨fun c => Vector.getElem_replicate _, rfl, rfl⟩, fun c d hX => ?_⟩
    have : (digitsOf state)[c] = match state[c] with
      | .digit d => d.get
      | .candidates _ => 0 := by
      show (Vector.map _ state)[c.val] = _
      rw [Vector.getElem_map]
      rfl
    rw [this]
    unfold excludedBy at hX
    split at hX
    · exact hX.elim
    · rename_i h
      rw [h]
  | toSudoku h ih =>
    right
    intro c hc
    have := h.inv.1.updateGrid.2
    show (Solver.updateGrid _).grid[c] ≠ 0
    rw [this]
    exact hc
  | @cellState looked s s' g X fuel c r h hf he ih =>
    obtain ⟨s1, r1, e, _, _, hg, _⟩ := cellState_ok h.inv.1 hf c
    rw [e] at he
    cases he
    right
    intro c hc
    rw [hg]
    exact hc
  | @insertOk looked s s' g X e h he ih =>
    right
    have hg := h.inv.1.updateGrid.2
    unfold Solver.insertCandidate at he
    obtain ⟨⟨s1, ok⟩, h1, h2⟩ := bind_ok he
    intro c hc
    rw [get_set_fin] at hc
    have hd : e.digit.get ≠ 0 := Digit.get_ne_zero e.digit
    rcases push_cases s.updateGrid e (.nakedSingles e) (Or.inl rfl) with ⟨h3, e1⟩ | ⟨h3, e1⟩ | ⟨_, _, e1⟩ <;>
      rw [e1] at h1 <;> cases h1 <;> cases h2
    · show s.updateGrid.grid[c] ≠ 0
      rw [hg] at h3 ⊢
      split at hc
      · rename_i hec
        subst hec
        rw [h3]
        exact hd
      · exact hc
    · show (s.updateGrid.grid.set e.cell e.digit.get)[c] ≠ 0
      rw [get_set_fin, hg]
      exact hc
  | @insertErr looked s s' g X e h he ih =>
    right
    have hg := h.inv.1.updateGrid.2
    unfold Solver.insertCandidate at he
    obtain ⟨⟨s1, ok⟩, h1, h2⟩ := bind_ok he
    intro c hc
    rcases push_cases s.updateGrid e (.nakedSingles e) (Or.inl rfl) with ⟨h3, e1⟩ | ⟨h3, e1⟩ | ⟨_, _, e1⟩ <;>
      rw [e1] at h1 <;> cases h1 <;> cases h2
    show s.updateGrid.grid[c] ≠ 0
    rw [hg]
    exact hc

theorem Reaches.pre {looked : Bool} {s : Solver} {g : Grid} {X : Fin 81 → Digit → Prop} (h : Reaches looked s g X) :
    Pre (fun c => g[c] ≠ 0) s := by
  have hi := h.inv.1
  rcases h.new with ⟨h1, h2⟩ | h1
  · have hC : ∀ c : Fin 81, g[c] ≠ 0 → ∃ e ∈ s.deduced, e.cell = c := by
      intro c hc
      obtain ⟨d, hd⟩ := hi.wf c hc
      exact ⟨⟨c, d⟩, (hi.ded c d).mpr hd, rfl⟩
    refine Or.inr ⟨h1.next, hC, fun fuel r hf he ext hx e hee => ?_⟩
    have := update_fresh hi.w hi.none h1.cp h1.next h1.cpE hC (fun e he hc => hc (h2 _ _ ((hi.elim e.cell e.digit).mp he))) hf he
    refine this (.nakedSingles e) ?_ e rfl
    rw [hx]
    exact List.mem_append_right _ (List.mem_map_of_mem hee)
  · exact Or.inl fun c hc => Or.inr (h1 c hc)

theorem solve_tried {fuel : Nat} {s : Solver} {sts : List Strategy} {r : Grid × Deductions} (hr : Returned fuel sts s r) :
    ∃ s', s.trySolve fuel sts = .ok s' ∧ r.2.deductions = s'.deductions ∧ r.2.eliminated = s'.eliminated := by
  rcases hr with hr | hr <;> unfold Solver.solve at hr <;> obtain ⟨s', h1, h2⟩ := bind_ok hr <;>
    refine ⟨s', h1, ?_⟩ <;> dsimp only at h2 <;> split at h2 <;> cases h2 <;> exact ⟨rfl, rfl⟩

/-- No candidate is recorded twice. -/
theorem solve_nodup {looked : Bool} {s : Solver} {g : Grid} {X : Fin 81 → Digit → Prop} (h : Reaches looked s g X) {fuel : Nat}
    (hf : 1000 ≤ fuel) {first : Strategy} {rest : List Strategy} (h1 : first = .nakedSingles ∨ first = .hiddenSingles)
    {r : Grid × Deductions} (hr : Returned fuel (first :: rest) s r) : r.2.eliminated.Nodup := by
  obtain ⟨s', h2, _, h3⟩ := solve_tried hr
  have hg : Grow true True (fun c => g[c] ≠ 0) s s' :=
    trySolve_grow (fun _ _ => by simpa using h1) hf h.inv.1.w (fun _ => h.pre) h2
  rw [h3]
  exact hg.nodup h.nodup

/-- The deductions of a solver enter digits in empty cells. -/
theorem Grow.empty {b : Bool} {s s' : Solver} {g : Grid} (h : Grow b True (fun c => g[c] ≠ 0) s s') (h0 : s.deductions = [])
    {ds : Deductions} (hd : ds.deductions = s'.deductions) {i : Nat} {x : Deduction (List Candidate)} {e : Candidate}
    (hx : ds.get i = .ok (some x)) (he : Pattern.entry x = some e) : g[e.cell] = 0 := by
  obtain ⟨l, h1, _, _, h2, _⟩ := h
  rw [h0, List.nil_append] at h1
  rw [← h1, ← hd] at h2
  obtain ⟨d, k1, k2⟩ := get_raw hx
  have e1 : d.single = some e := by rw [← (withSlices_parts k2).1]; exact he
  by_contra hc
  refine h2 trivial e.cell ?_ hc
  unfold entryCells
  exact List.mem_map_of_mem (List.mem_filterMap.mpr ⟨d, List.mem_of_getElem? k1, e1⟩)

end Verif.Strat
