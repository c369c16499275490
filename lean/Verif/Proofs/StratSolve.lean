import Verif.Proofs.StratLog
import Verif.Proofs.StratWings
import Verif.Proofs.GenSolve

/-! # The strategy solver: the strategies and the loop of `solve` -/
namespace Verif.Strat

open Bitset Generator

attribute [local irreducible] size

/-! ## Entering singles -/

theorem push_meas {s : Solver} {e : Candidate} (h0 : s.grid[e.cell] = 0) (d : RangeDeduction) : Meas s (s.pushed e d) := by
  have hc : clueCount (s.pushed e d).grid = clueCount s.grid + 1 := clueCount_set h0 (Digit.get_ne_zero e.digit)
  have h1 : emptyCount (s.pushed e d).cp = emptyCount s.cp := rfl
  have h2 : candCount (s.pushed e d).eliminated = candCount s.eliminated := rfl
  refine ⟨?_, fun _ => ?_⟩
  · unfold gain; omega
  · unfold gain; omega

/-- A found single. -/
structure Found (st : Strategy) (cp : Vector DigitSet 81) (e : Candidate) (d : RangeDeduction) : Prop where
  single : d.single = some e
  poss : cp[e.cell].getLsbD e.digit.val = true
  sound : ∀ t, CpOK cp t → t[e.cell] = e.digit.get
  pattern : ∃ d', (∀ elim, withSlices d elim = .ok d') ∧ d'.strategy = .ok st ∧ Pattern.Matches (Cands cp) st d'

theorem push_run {sts : List Strategy} {st : Strategy} {s1 s' s'' : Solver} {g1 : Grid} (h : Settled s1 g1)
    (hrun : Run sts s1 s') (hst : st ∈ sts) {e : Candidate} {d : RangeDeduction} (hf : Found st s1.cp e d)
    {ext : List Candidate} (hext : ∀ x ∈ ext, x = e) (hd : s''.deduced = s'.deduced ++ ext) (hne : e ∈ ext)
    (hds : s''.deductions = s'.deductions ++ [d])
    (hel : s''.eliminated = s'.eliminated) (hg : s''.grid = s'.grid.set e.cell e.digit.get) : Run sts s1 s'' := by
  obtain ⟨x, hx⟩ := hrun.ded
  obtain ⟨y, hy⟩ := hrun.elim
  refine ⟨?_, ⟨x ++ ext, by rw [hd, hx, List.append_assoc]⟩, ⟨y, by rw [hel, hy]⟩, ?_, ?_⟩
  · intro t ht ha
    have ha' := hrun.pres t ht ha
    have hte := hf.sound t (h.cpOK ht ha)
    refine ⟨?_, ?_, ?_⟩
    · intro e' he'
      rw [hd] at he'
      rcases List.mem_append.mp he' with he' | he'
      · exact ha'.ded e' he'
      · rw [hext e' he']
        exact hte
    · rw [hel]
      exact ha'.elim
    · intro c hc
      rw [hg, get_set_fin] at hc ⊢
      split
      · rename_i ec
        subst ec
        exact hte
      · rename_i ec
        rw [if_neg ec] at hc
        exact ha'.grid c hc
  · intro hs c
    have hs' := hrun.gsrc hs c
    rw [hg, get_set_fin, hd]
    split
    · rename_i ec
      subst ec
      exact Or.inr ⟨e.digit, rfl, List.mem_append_right _ hne⟩
    · rcases hs' with h0 | ⟨d, h1, h2⟩
      · exact Or.inl h0
      · exact Or.inr ⟨d, h1, List.mem_append_left _ h2⟩
  · intro clues elim0 solv hs hl
    have hl' := hrun.log clues elim0 solv hs hl
    refine hl'.extend (ds := [d]) (ext := ext) (news := []) hds hd (by simp [hel]) ?_ ?_ ?_ ?_
    · intro i d2 hi
      have hd2 := List.mem_of_getElem? hi
      rw [List.mem_singleton] at hd2
      subst hd2
      obtain ⟨d', p1, p2, p3⟩ := hf.pattern
      intro more
      refine ⟨d', p1 _, st, hst, p2, fun hv => ?_⟩
      obtain ⟨t, ht, ha⟩ := hs hv
      refine ⟨s1.deduced, s1.eliminated, ?_, ?_, ?_⟩
      · intro e' he'
        left
        rw [hx]
        exact List.mem_append_left _ he'
      · intro e' he'
        rw [hy]
        exact List.mem_append_left _ he'
      · rw [← h.cands ht ha]
        exact p3
    · intro e' he'
      rw [hext e' he']
      exact ⟨d, List.mem_singleton_self _, hf.single⟩
    · intro e' he'; simp at he'
    · intro d2 hd2 e2 he2
      rw [List.mem_singleton] at hd2
      subst hd2
      rw [hf.single] at he2
      cases he2
      exact hne

/-! ## Naked singles -/

theorem found_naked {cp : Vector DigitSet 81} {c : Fin 81} {d : Digit} (hu : ∀ j, cp[c].getLsbD j = true ↔ j = d.val) :
    Found .nakedSingles cp ⟨c, d⟩ (.nakedSingles ⟨c, d⟩) := by
  refine ⟨rfl, (hu _).mpr rfl, ?_, ⟨_, fun _ => rfl, rfl, ?_⟩⟩
  · intro t ht
    rcases ht.poss c _ (dig_spec ht.solved c) with h0 | hb
    · have := (hu d.val).mpr rfl
      rw [h0] at this
      simp at this
    · rw [hu] at hb
      show t[c] = d.get
      rw [dig_spec ht.solved c, Fin.ext hb]
  · intro d'
    show cp[c].getLsbD d'.val = true ↔ d' = d
    rw [hu, Fin.ext_iff]

/-- The solver with an entry that was not yet processed. -/
def Solver.push1 (s : Solver) (e : Candidate) : Solver := { s with deduced := s.deduced ++ [e] }

theorem Settled.grid_zero {s : Solver} {g : Grid} (h : Settled s g) {c : Fin 81} (h0 : s.cp[c] ≠ 0#16) : s.grid[c] = 0 := by
  by_contra hc
  obtain ⟨d, hd⟩ := h.w.range c hc
  exact h0 (h.closed' (h.gsrc.mem hd))

theorem nakedLoop_spec {s : Solver} (h : Base s) : ∀ cells : List (Fin 81),
    Res.Post (nakedSinglesLoop s.cp true cells s) (fun r => (r.1 = s ∧ r.2 = true) ∨ ∃ (c : Fin 81) (d : Digit),
      (∀ j, s.cp[c].getLsbD j = true ↔ j = d.val) ∧
      ((s.grid[c] = Digit.get d ∧ r = (s.push1 ⟨c, d⟩, true)) ∨
       (s.grid[c] = 0 ∧ r = ((s.push1 ⟨c, d⟩).pushed ⟨c, d⟩ (.nakedSingles ⟨c, d⟩), true)) ∨
       (s.grid[c] ≠ 0 ∧ r = (s.push1 ⟨c, d⟩, false)))) False := by
  intro cells
  induction cells with
  | nil => exact Or.inl ⟨rfl, rfl⟩
  | cons c cells ih =>
    unfold nakedSinglesLoop
    rcases uniqueItem_spec (n := 9) (by omega) (by omega) (by omega) (h.w.fits c) with ⟨_, e⟩ | ⟨d, hu, e⟩ | ⟨_, e⟩
    · simp only [e, Res.ok_bind]
      exact ih
    · simp only [e, Res.ok_bind]
      rcases push_cases { s with deduced := s.deduced ++ [⟨c, d⟩] } ⟨c, d⟩ (.nakedSingles ⟨c, d⟩) (Or.inl rfl)
        with ⟨h1, e⟩ | ⟨h1, e⟩ | ⟨h1, _, e⟩
      · rw [e, Res.ok_bind]
        exact Or.inr ⟨c, d, hu, Or.inl ⟨h1, rfl⟩⟩
      · rw [e, Res.ok_bind]
        exact Or.inr ⟨c, d, hu, Or.inr (Or.inl ⟨h1, rfl⟩)⟩
      · rw [e, Res.ok_bind]
        exact Or.inr ⟨c, d, hu, Or.inr (Or.inr ⟨h1, rfl⟩)⟩
    · simp only [e, Res.ok_bind]
      exact ih

theorem W.push1 {s : Solver} (h : W 0 s) (e : Candidate) : W 1 (s.push1 e) := by
  have h1 := h.nextLe
  have h2 := h.hpNextLe
  have h3 := h.budget
  refine ⟨h.fits, h.fitsH, h.fitsP, h.count, h.next, ?_, h.elimLe, h.hpElimLe, ?_, ?_, h.range, h.last, h.done, ?_⟩
  · show s.cpNext ≤ (s.deduced ++ [e]).length
    rw [List.length_append]; omega
  · show s.hpNext ≤ (s.deduced ++ [e]).length
    rw [List.length_append]; omega
  · show (s.deduced ++ [e]).length ≤ 81 + 1 + clueCount s.grid + emptyCount s.cp
    rw [List.length_append, List.length_singleton]; omega
  · have h1 : (s.deduced ++ [e]).take s.hpNext = s.deduced.take s.hpNext := List.take_append_of_le_length h.hpNextLe
    obtain ⟨n, hn⟩ := h.hpEx
    refine ⟨n, ?_⟩
    show s.hpElim ≤ n ∧ n ≤ s.eliminated.length ∧ ∀ (h : Fin 27) (d : Digit) (p : Fin 9),
      s.hp[h][d].getLsbD p.val = true ↔ CandL ((s.deduced ++ [e]).take s.hpNext) _ _ d
    rw [h1]
    exact hn

theorem W.of_budget {k : Nat} {s : Solver} (h : W k s)
    (hb : s.deduced.length ≤ 81 + 0 + clueCount s.grid + emptyCount s.cp) : W 0 s :=
  ⟨h.fits, h.fitsH, h.fitsP, h.count, h.next, h.nextLe, h.elimLe, h.hpElimLe, h.hpNextLe, hb, h.range, h.last, h.done, h.hpEx⟩

theorem Gh.push1 {s : Solver} {g : Grid} (h : Gh s g) (e : Candidate) : Gh (s.push1 e) g :=
  let h' := h.pushed e (.nakedSingles e)
  ⟨h'.fits, h'.empty, h'.count, h'.house, h'.range, h'.distinct, h'.src, h'.lower, h'.nextLe, h'.first⟩

theorem Closed.push1 {s : Solver} (h : Closed s) (hn : s.cpNext ≤ s.deduced.length) (e : Candidate) : Closed (s.push1 e) := by
  intro x hx
  have hx : x ∈ (s.deduced ++ [_]).take s.cpNext := hx
  rw [take_cpNext_append hn] at hx
  exact h x hx

/-- The update after an entry was recorded, perhaps twice, in a cell with one possible digit. -/
theorem naked_update {sts : List Strategy} {fuel : Nat} (hf : 1000 ≤ fuel) {s1 s2 : Solver} (h1 : Base s1) {c : Fin 81}
    {d : Digit} (hu : ∀ j, s1.cp[c].getLsbD j = true ↔ j = d.val) (h2 : W 1 s2) (hcp : s2.cp = s1.cp)
    (hmem : s2.deduced[s2.cpNext]? = some ⟨c, d⟩) (hel : s2.eliminated = s1.eliminated)
    (hlen : s2.deduced.length + clueCount s1.grid ≤ s1.deduced.length + 1 + clueCount s2.grid)
    (hcl : clueCount s1.grid ≤ clueCount s2.grid)
    (hnew : ∀ e ∈ s2.deduced, e ∈ s1.deduced ∨ s1.cp[e.cell].getLsbD e.digit.val = true)
    (hsem : ∀ g, Sem s1 g → Run sts s1 s2 ∧ Sem s2 g) :
    Res.Post (s2.update fuel false true) (StepN sts s1) False := by
  have hne : s1.cp[c] ≠ 0#16 := ne_zero_iff.mpr ⟨d.val, (hu _).mpr rfl⟩
  refine Res.Post.mono ((update_w (k := 1) (by omega) false true (by omega) _ h2).and
    (Q := fun r => ∀ g, Sem s2 g → ∃ g', Progress false s2 r.1 g' ∧ (r.2 = true → Closed r.1 ∧ Fresh r.1 g') ∧
      (r.2 = false → (true = true → ∀ e ∈ s2.eliminated.drop s2.cpElim, g[e.cell] = 0) → NoSol false s2))
    (fun r hr g hs => update_g fuel false true hs.gh hs.closed hs.fresh r hr)) ?_ id
  rintro ⟨s3, ok⟩ ⟨⟨w1, w2, w3, _⟩, h4⟩
  have hgrow : ok = true → emptyCount s1.cp < emptyCount s3.cp := by
    intro hr
    refine emptyCount_lt (cp := s1.cp) (c := c) ?_ hne ?_
    · rw [← hcp]; exact w2.sub
    · have hw := w3 hr
      obtain ⟨ext, x1, _, x3⟩ := w2.ded
      rw [x3 rfl, List.append_nil] at x1
      have x1 : s3.deduced = s2.deduced := x1
      have hall : s3.cpNext = s3.deduced.length := hw.all
      have hlt := (List.getElem?_eq_some_iff.mp hmem).1
      exact hw.processed s2.cpNext (Nat.le_refl _) (by show _ < s3.cpNext; rw [hall, x1]; exact hlt) ⟨c, d⟩
        (by show s3.deduced[s2.cpNext]? = _; rw [x1]; exact hmem)
  have hl : s3.deduced.length + clueCount s2.grid = s2.deduced.length + clueCount s3.grid := w2.len
  have hb := h1.w.budget
  have hee : s3.eliminated = s1.eliminated := w2.elim.trans hel
  refine ⟨⟨fun hr => ?_, fun hr => ?_, by rw [← hcp]; exact w2.sub, fun e he => ?_, ?_⟩, ?_⟩
  rotate_right
  · intro hr hl g hs t ht ha
    obtain ⟨r1, r2⟩ := hsem g hs
    obtain ⟨g', p, _, q⟩ := h4 g r2
    have hl : s3.eliminated.length < 65536 := hl
    rw [w2.elim] at hl
    exact q hr (fun _ => r2.pend hl) t (fun h => by cases h) (Cons.of_solved ht (r1.pres t ht ha))
  rotate_left 2
  · rcases w2.new e he with h | h
    · exact hnew e h
    · rw [hcp] at h
      exact Or.inr h
  rotate_right 2
  · have hg := hgrow hr
    refine w1.of_budget ?_
    show s3.deduced.length ≤ 81 + 0 + clueCount s3.grid + emptyCount s3.cp
    omega
  · have hg := hgrow hr
    have h5 := w2.deduced_le
    have h5 : s2.deduced.length ≤ s3.deduced.length := h5
    refine ⟨?_, fun _ => ?_⟩
    · show gain s1 ≤ gain s3
      unfold gain
      rw [hee]; omega
    · show gain s1 < gain s3
      unfold gain
      rw [hee]; omega
  · intro g hs
    obtain ⟨r1, r2⟩ := hsem g hs
    obtain ⟨g', p, q, _⟩ := h4 g r2
    exact ⟨r1.trans (p.trace.run w2 (fun h => by cases h)), g', p.gh,
      fun hr => ⟨p.gh, (q hr).1, (q hr).2, p.trace.gsrc r2.gsrc, Pend.of_all (w3 hr).cpE⟩⟩

theorem findNakedSingles_step {sts : List Strategy} (hst : Strategy.nakedSingles ∈ sts) {fuel : Nat} (hf : 1000 ≤ fuel)
    {s : Solver} (h : W 0 s) : Res.Post (s.findNakedSingles fuel true) (Step1 sts s) False := by
  unfold Solver.findNakedSingles andThen
  refine Res.Post.bind (update_step (sts := sts) (fn := false) (fun h => by cases h) hf h) ?_
  rintro ⟨s1, ok⟩ ⟨h1, h2⟩
  cases ok
  · exact h1
  · simp only [if_true]
    have h4 : Base s1 := (h2 rfl).2
    clear h2
    have hall : s1.cpNext = s1.deduced.length := h4.all
    have hn1 : s1.cpNext ≤ s1.deduced.length := h4.w.nextLe
    refine Res.Post.bind (nakedLoop_spec h4 _) ?_
    rintro ⟨s2, ok⟩ (⟨h6, h7⟩ | ⟨c, d, hu, hx⟩)
    · have h6 : s2 = s1 := h6
      have h7 : ok = true := h7
      subst h6 h7
      simp only [if_true]
      exact Res.Post.mono (update_step (sts := sts) (fn := false) (fun h => by cases h) hf h4.w)
        (fun r hr => hr.1.toStepN.after1 h1) id
    · have hne : s1.cp[c] ≠ 0#16 := ne_zero_iff.mpr ⟨d.val, (hu _).mpr rfl⟩
      have hidx : (s1.deduced ++ [(⟨c, d⟩ : Candidate)])[s1.cpNext]? = some ⟨c, d⟩ := by
        rw [hall, List.getElem?_append_right (Nat.le_refl _), Nat.sub_self]
        rfl
      rcases hx with ⟨h0, e⟩ | ⟨h0, e⟩ | ⟨h0, e⟩
      · cases e
        simp only [if_true]
        refine Res.Post.mono (naked_update hf h4 hu (h4.w.push1 ⟨c, d⟩) rfl hidx rfl ?_ (Nat.le_refl _) ?_ ?_)
          (fun r hr => hr.after1 h1) id
        · show (s1.deduced ++ [_]).length + _ ≤ _
          rw [List.length_append, List.length_singleton]
          exact Nat.le_refl _
        · intro e he
          rcases List.mem_append.mp he with he | he
          · exact Or.inl he
          · rw [List.mem_singleton] at he
            subst he
            exact Or.inr ((hu _).mpr rfl)
        · intro g hs
          have hset : Settled s1 g := ⟨h4, hs⟩
          have := hset.grid_zero hne
          rw [h0] at this
          exact absurd this (Digit.get_ne_zero _)
      · cases e
        simp only [if_true]
        have hcl : clueCount ((s1.push1 ⟨c, d⟩).pushed ⟨c, d⟩ (.nakedSingles ⟨c, d⟩)).grid = clueCount s1.grid + 1 :=
          clueCount_set h0 (Digit.get_ne_zero d)
        refine Res.Post.mono (naked_update hf h4 hu (pushed_w (e := ⟨c, d⟩) (h4.w.push1 ⟨c, d⟩) h0 (.nakedSingles ⟨c, d⟩)) rfl ?_ rfl ?_
          (by rw [hcl]; omega) ?_ ?_)
          (fun r hr => hr.after1 h1) id
        · show ((s1.deduced ++ [_]) ++ [_])[s1.cpNext]? = _
          rw [List.getElem?_append_left (by rw [List.length_append, List.length_singleton]; omega)]
          exact hidx
        · rw [hcl]
          show ((s1.deduced ++ [_]) ++ [_]).length + _ ≤ _
          rw [List.length_append, List.length_append, List.length_singleton]
          omega
        · intro e he
          have he : e ∈ (s1.deduced ++ [_]) ++ [_] := he
          simp only [List.mem_append, List.mem_singleton] at he
          rcases he with (he | rfl) | rfl
          · exact Or.inl he
          · exact Or.inr ((hu _).mpr rfl)
          · exact Or.inr ((hu _).mpr rfl)
        · intro g hs
          have hset : Settled s1 g := ⟨h4, hs⟩
          have hrun : Run sts s1 ((s1.push1 ⟨c, d⟩).pushed ⟨c, d⟩ (.nakedSingles ⟨c, d⟩)) :=
            push_run hset (Run.refl s1) hst (found_naked hu) (ext := [⟨c, d⟩, ⟨c, d⟩]) (by simp)
              (by simp [Solver.push1, Solver.pushed]) (by simp) rfl rfl rfl
          refine ⟨hrun, (hs.gh.push1 _).pushed _ _, (hs.closed.push1 hn1 _).pushed ?_ _ _, hs.fresh, hrun.gsrc hs.gsrc, hs.pend⟩
          show s1.cpNext ≤ (s1.deduced ++ [_]).length
          rw [List.length_append]; omega
      · cases e
        refine StepN.after1 (s1 := s1) ⟨⟨fun hc => (Bool.false_ne_true hc).elim, fun hc => (Bool.false_ne_true hc).elim,
          Sub.refl _, fun e he => ?_, fun g hs => ?_⟩, fun _ _ g hs =>
            absurd (Settled.grid_zero ⟨h4, hs⟩ hne) h0⟩ h1
        · rcases List.mem_append.mp he with he | he
          · exact Or.inl he
          · rw [List.mem_singleton] at he
            subst he
            exact Or.inr ((hu _).mpr rfl)
        have hset : Settled s1 g := ⟨h4, hs⟩
        exact absurd (hset.grid_zero hne) h0

/-! ## Hidden singles -/

theorem scanDigits_spec (cp : Vector DigitSet 81) (cells : List (Fin 81)) :
    (∀ i, (scanDigits (cells.map (fun c => cp[c]))).1.getLsbD i = true ↔ ∃ c ∈ cells, cp[c].getLsbD i = true) ∧
    (∀ i, (scanDigits (cells.map (fun c => cp[c]))).1.getLsbD i = true →
      (scanDigits (cells.map (fun c => cp[c]))).2.getLsbD i = false →
      ∀ c ∈ cells, ∀ c' ∈ cells, cp[c].getLsbD i = true → cp[c'].getLsbD i = true → c = c') := by
  have : scanDigits (cells.map (fun c => cp[c])) = ({ Gen.new with poss := cp } : Gen).houseScan cells := by
    unfold scanDigits Gen.houseScan
    rw [List.foldl_map]
  rw [this]
  exact houseScan_spec { Gen.new with poss := cp } cells

theorem houseNr_categorize : ∀ h : Fin 27, Pattern.houseNr (Pos.categorize h) = h.val := by decide +kernel

theorem inHouse_iff : ∀ (h : Fin 27) (c : Fin 81), Sudoku.InHouse h c ↔ Pattern.InHouse h.val c := by
  unfold Sudoku.InHouse; decide +kernel

theorem found_hidden {cp : Vector DigitSet 81} {e : Candidate} {h : Fin 27} (hin : Pattern.InHouse h.val e.cell)
    (hb : cp[e.cell].getLsbD e.digit.val = true)
    (hu : ∀ c, Pattern.InHouse h.val c → cp[c].getLsbD e.digit.val = true → c = e.cell) :
    Found .hiddenSingles cp e (.hiddenSingles e (Pos.categorize h)) := by
  refine ⟨rfl, hb, ?_, ⟨_, fun _ => rfl, rfl, ?_⟩⟩
  · intro t ht
    obtain ⟨p, hp⟩ := exists_pos ht.solved h e.digit
    obtain ⟨q, hq, _⟩ := inHouse_hca hin
    rcases ht.poss _ _ hp with h0 | hb'
    · exfalso
      have hne : Pos.houseCellAt h p ≠ e.cell := by
        intro hc
        have := congrArg (fun c : Fin 81 => cp[c]) hc
        have := this.symm.trans h0
        have this : cp[e.cell] = 0#16 := this
        rw [this] at hb
        simp at hb
      have := ht.fresh _ e.cell e.digit hne (by rw [← hq]; exact sameHouse_of_hca q p h) h0 hp
      rw [hb] at this
      cases this
    · have := hu _ (hca_inHouse h p).1 hb'
      exact (congrArg (fun c : Fin 81 => t[c]) this).symm.trans hp
  · show Pattern.HiddenSingle (Cands cp) e (Pattern.houseNr (Pos.categorize h))
    rw [houseNr_categorize]
    refine ⟨hin, fun c hc => ⟨hu c hc, ?_⟩⟩
    rintro rfl
    exact hb

/-- The state during the search for hidden singles. -/
structure Hid (sts : List Strategy) (s1 : Solver) (s' : Solver) : Prop where
  w : W 0 s'
  meas : Meas s1 s'
  cp : s'.cp = s1.cp
  new : ∀ e ∈ s'.deduced, e ∈ s1.deduced ∨ s1.cp[e.cell].getLsbD e.digit.val = true
  sem : ∀ g1, Sem s1 g1 → Run sts s1 s' ∧ Sem s' g1

theorem Hid.last {sts : List Strategy} {s1 s' : Solver} (h : Hid sts s1 s') {n : Nat} (hn : n ≤ 27) :
    Hid sts s1 { s' with lastHouse := n } := by
  refine ⟨?_, ⟨h.meas.mono, h.meas.strict⟩, h.cp, h.new, fun g1 hs => ?_⟩
  · have := h.w
    exact ⟨this.fits, this.fitsH, this.fitsP, this.count, this.next, this.nextLe, this.elimLe, this.hpElimLe,
      this.hpNextLe, this.budget, this.range, hn, this.done, this.hpEx⟩
  · obtain ⟨h1, h2⟩ := h.sem g1 hs
    have := h2.gh
    exact ⟨h1.trans (Run.of_eq rfl rfl rfl rfl), ⟨this.fits, this.empty, this.count, this.house, this.range,
      this.distinct, this.src, this.lower, this.nextLe, this.first⟩, h2.closed, h2.fresh, h2.gsrc, h2.pend⟩

/-- No solution agrees with the state. -/
def NoAgree (s : Solver) : Prop := ∀ g, Sem s g → ∀ t, Solved t → ¬ Agree t s

theorem Hid.push {sts : List Strategy} (hst : Strategy.hiddenSingles ∈ sts) {s1 s' : Solver}
    (h1 : Base s1) (h : Hid sts s1 s') {e : Candidate} {x : Pos.HouseType}
    (hf : Found .hiddenSingles s1.cp e (.hiddenSingles e x)) :
    Res.Post (s'.pushNewCandidate e (.hiddenSingles e x)) (fun r => Hid sts s1 r.1 ∧ (r.2 = false → NoAgree s1)) False := by
  rcases push_cases s' e (.hiddenSingles e x) (Or.inr ⟨x, rfl⟩) with ⟨_, e1⟩ | ⟨h0, e1⟩ | ⟨hz, hne, e1⟩
  · rw [e1]; exact ⟨h, fun hc => Bool.noConfusion hc⟩
  · rw [e1]
    refine ⟨?_, fun hc => Bool.noConfusion hc⟩
    refine ⟨pushed_w h.w h0 _, h.meas.trans (push_meas h0 _), h.cp, fun y hy => ?_, fun g1 hs => ?_⟩
    · rcases List.mem_append.mp hy with hy | hy
      · exact h.new y hy
      · rw [List.mem_singleton] at hy
        subst hy
        exact Or.inr hf.poss
    obtain ⟨h2, h3⟩ := h.sem g1 hs
    exact ⟨push_run ⟨h1, hs⟩ h2 hst hf (ext := [e]) (by simp) rfl (by simp) rfl rfl rfl,
      h3.gh.pushed _ _, h3.closed.pushed h3.gh.nextLe _ _, h3.fresh, h3.gsrc.pushed _ _, h3.pend⟩
  · rw [e1]
    refine ⟨h, fun _ g hs t ht ha => ?_⟩
    obtain ⟨h2, h3⟩ := h.sem g hs
    obtain ⟨d', hd'⟩ := h.w.range e.cell hz
    have := (h2.pres t ht ha).ded _ (h3.gsrc.mem hd')
    have hset : Settled s1 g := ⟨h1, hs⟩
    have hte := hf.sound t (hset.cpOK ht ha)
    apply hne
    rw [hd', ← hte]
    exact this.symm

theorem two_of_card {w : Nat} {a : BitVec w} (h : 2 ≤ (elems a).card) :
    ∃ i j, i ≠ j ∧ a.getLsbD i = true ∧ a.getLsbD j = true := by
  obtain ⟨i, hi, j, hj, hne⟩ := Finset.one_lt_card.mp h
  exact ⟨i, j, hne, mem_elems.mp hi, mem_elems.mp hj⟩

theorem hiddenCells_spec {sts : List Strategy} (hst : Strategy.hiddenSingles ∈ sts) {s1 : Solver}
    (h1 : Base s1) (stop : Bool) (house : Fin 27) : ∀ (cells : List (Fin 81)) (singles : DigitSet) (s' : Solver),
    Hid sts s1 s' →
    (∀ c ∈ cells, ∀ d : Digit, singles.getLsbD d.val = true → s1.cp[c].getLsbD d.val = true →
      Found .hiddenSingles s1.cp ⟨c, d⟩ (.hiddenSingles ⟨c, d⟩ (Pos.categorize house))) →
    Res.Post (hiddenSinglesCells s1.cp stop house cells singles s')
      (fun r => Hid sts s1 r.1 ∧ (r.2 = none → NoAgree s1)) False := by
  intro cells
  induction cells with
  | nil => intro singles s' h _; exact ⟨h, fun hc => by cases hc⟩
  | cons c cells ih =>
    intro singles s' h h3
    have h3' : ∀ c ∈ cells, ∀ d : Digit, singles.getLsbD d.val = true → s1.cp[c].getLsbD d.val = true →
      Found .hiddenSingles s1.cp ⟨c, d⟩ (.hiddenSingles ⟨c, d⟩ (Pos.categorize house)) := fun c hc => h3 c (by simp [hc])
    unfold hiddenSinglesCells
    rcases uniqueItem_spec (n := 9) (by omega) (by omega) (by omega) ((h1.w.fits c).inter_left (b := singles))
      with ⟨_, e⟩ | ⟨d, hu, e⟩ | ⟨hm, e⟩
    · simp only [e, Res.ok_bind]
      exact ih singles s' h h3'
    · simp only [e, Res.ok_bind]
      have hd := (hu d.val).mpr rfl
      rw [bit_inter, Bool.and_eq_true] at hd
      refine Res.Post.bind (h.push hst h1 (h3 c (by simp) d hd.2 hd.1)) ?_
      rintro ⟨s2, ok⟩ ⟨h2, h4⟩
      have h2 : Hid sts s1 s2 := h2
      cases ok
      · exact ⟨h2, fun _ => h4 rfl⟩
      · show Res.Post (if stop = true then _ else if _ then _ else _) _ _
        split
        · exact ⟨h2, fun hc => by cases hc⟩
        · split
          · exact ⟨h2, fun hc => by cases hc⟩
          · refine ih _ s2 h2 ?_
            intro c' hc' d' hd'
            rw [bit_without, Bool.and_eq_true] at hd'
            exact h3' c' hc' d' hd'.1
    · simp only [e, Res.ok_bind]
      refine ⟨h, fun _ g hs t ht ha => ?_⟩
      obtain ⟨i, j, hij, hi, hj⟩ := two_of_card hm
      rw [bit_inter, Bool.and_eq_true] at hi hj
      have hset : Settled s1 g := ⟨h1, hs⟩
      have hok := hset.cpOK ht ha
      have hi9 := h1.w.fits c i hi.1
      have hj9 := h1.w.fits c j hj.1
      have e1 := (h3 c (by simp) ⟨i, hi9⟩ hi.2 hi.1).sound t hok
      have e2 := (h3 c (by simp) ⟨j, hj9⟩ hj.2 hj.1).sound t hok
      exact hij (congrArg Fin.val (Digit.get_inj (e1.symm.trans e2)))

/-- With a solution, every digit of a house is entered or possible in one of its cells. -/
theorem house_full {s1 : Solver} (h1 : Base s1) {g t : Grid} (hs : Sem s1 g) (ht : Solved t) (ha : Agree t s1)
    (house : Fin 27) {unsolved : DigitSet}
    (sc1 : ∀ i, unsolved.getLsbD i = true ↔ ∃ c ∈ mems 81 (Pos.houseCells house), s1.cp[c].getLsbD i = true) :
    union unsolved s1.hs[house] = ALL 16 9 := by
  have hset : Settled s1 g := ⟨h1, hs⟩
  have hmem : ∀ c, c ∈ mems 81 (Pos.houseCells house) ↔ Sudoku.InHouse house c := by
    intro c; rw [mem_mems]; exact houseCells_get house c
  refine BitVec.eq_of_getLsbD_eq fun i hi => ?_
  rw [Bool.eq_iff_iff, bit_union, Bool.or_eq_true, bit_all (by omega) (by omega)]
  constructor
  · rintro (h | h)
    · obtain ⟨c, _, hb⟩ := (sc1 i).mp h
      exact h1.w.fits c i hb
    · exact h1.w.fitsH house i h
  · intro hi9
    obtain ⟨p, hp⟩ := exists_pos ht house ⟨i, hi9⟩
    have hin := (inHouse_iff house (Pos.houseCellAt house p)).mpr (hca_inHouse house p).1
    by_cases h0 : s1.cp[Pos.houseCellAt house p] = 0#16
    · right
      have hf := hs.gh.filled ht ha h0
      have := hs.gh.sub_sol ha hf
      exact (hs.gh.house house ⟨i, hi9⟩).mpr ⟨_, hin, by rw [← this]; exact hp⟩
    · left
      refine (sc1 i).mpr ⟨_, (hmem _).mpr hin, ?_⟩
      rcases (hset.cpOK ht ha).poss _ _ hp with h | h
      · exact absurd h h0
      · exact h

theorem hiddenLoop_spec {sts : List Strategy} (hst : Strategy.hiddenSingles ∈ sts) {s1 : Solver}
    (h1 : Base s1) (stop : Bool) : ∀ (houses : List (Fin 27)) (s' : Solver), Hid sts s1 s' →
    Res.Post (hiddenSinglesLoop s1.cp s1.hs stop houses s')
      (fun r => Hid sts s1 r.1 ∧ (r.2 = false → NoAgree s1)) False := by
  intro houses
  induction houses with
  | nil => intro s' h; exact ⟨h, fun hc => by cases hc⟩
  | cons house houses ih =>
    intro s' h
    unfold hiddenSinglesLoop
    dsimp only
    have hh := h.last (n := if s'.lastHouse < 27 then s'.lastHouse + 1 else 0) (by split <;> omega)
    generalize ({ s' with lastHouse := if s'.lastHouse < 27 then s'.lastHouse + 1 else 0 } : Solver) = s2 at hh
    rw [items_eq (by omega) (by omega) (houseCells_fits house), Res.ok_bind]
    have hmem : ∀ c, c ∈ mems 81 (Pos.houseCells house) ↔ Pattern.InHouse house.val c := by
      intro c; rw [mem_mems, ← inHouse_iff]; exact houseCells_get house c
    obtain ⟨sc1, sc2⟩ := scanDigits_spec s1.cp (mems 81 (Pos.houseCells house))
    generalize scanDigits ((mems 81 (Pos.houseCells house)).map (fun c => s1.cp[c])) = sc at sc1 sc2
    obtain ⟨unsolved, multiple⟩ := sc
    dsimp only at sc1 sc2 ⊢
    split
    · rename_i hfull
      exact ⟨hh, fun _ g hs t ht ha => hfull (house_full h1 hs ht ha house sc1)⟩
    · split
      · exact ih s2 hh
      · refine Res.Post.bind (hiddenCells_spec hst h1 stop house _ _ s2 hh ?_) ?_
        · intro c hc d hd hb
          rw [bit_without, Bool.and_eq_true, Bool.not_eq_true'] at hd
          refine found_hidden (e := ⟨c, d⟩) ((hmem c).mp hc) hb ?_
          intro c' hc' hb'
          exact sc2 d.val hd.1 hd.2 c' ((hmem c').mpr hc') c hc hb' hb
        · rintro ⟨s3, o⟩ ⟨h3, h4⟩
          have h3 : Hid sts s1 s3 := h3
          match o with
          | none => exact ⟨h3, fun _ => h4 rfl⟩
          | some true => exact ⟨h3, fun hc => by cases hc⟩
          | some false => exact ih s3 h3

theorem Hid.step {sts : List Strategy} {s1 s' : Solver} (h : Hid sts s1 s') (b : Bool) : Step sts s1 (s', b) := by
  refine ⟨fun _ => h.w, fun _ => h.meas, (by rw [h.cp]; exact Sub.refl _), h.new, fun g hs => ?_⟩
  obtain ⟨h1, h2⟩ := h.sem g hs
  exact ⟨h1, g, h2.gh, fun _ => h2⟩

theorem findHiddenSingles_step {sts : List Strategy} (hst : Strategy.hiddenSingles ∈ sts) {fuel : Nat} (hf : 1000 ≤ fuel)
    (stop : Bool) {s : Solver} (h : W 0 s) :
    Res.Post (s.findHiddenSingles fuel stop) (Step1 sts s) False := by
  unfold Solver.findHiddenSingles andThen
  refine Res.Post.bind (update_step (sts := sts) (fn := false) (fun h => by cases h) hf h) ?_
  rintro ⟨s1, ok⟩ ⟨h1, h2⟩
  cases ok
  · exact h1
  · simp only [if_true]
    obtain ⟨h3, h4⟩ := h2 rfl
    refine Res.Post.bind (hiddenLoop_spec hst h4 stop _ s1 ⟨h4.w, Meas.refl _, rfl, fun _ h => Or.inl h, fun g hs => ⟨Run.refl _, hs⟩⟩) ?_
    rintro ⟨s2, ok⟩ ⟨h5, h5'⟩
    have h5 : Hid sts s1 s2 := h5
    cases ok
    · exact StepN.after1 (s1 := s1) ⟨h5.step false, fun _ _ => h5' rfl⟩ h1
    · refine Res.Post.mono (update_step (sts := sts) (fn := false) (fun h => by cases h) hf h5.w) ?_ id
      rintro ⟨s3, ok⟩ ⟨h6, _⟩
      exact (h6.toStepN.after (h5.step true)).after1 h1

/-! ## The other strategies -/

theorem updateHousePoss_step {sts : List Strategy} {s : Solver} (h : W 0 s) :
    ∃ s1, s.updateHousePoss = .ok s1 ∧ W 0 s1 ∧ HpCurrent s1 ∧ Step sts s (s1, true) ∧ (Base s → Base s1) ∧
      (∀ r, First s1 r → First s r) ∧ s1.deduced = s.deduced := by
  obtain ⟨hp, hpElim, hpNext, e, hw, _, hc⟩ := updateHousePoss_w (by omega) h
  refine ⟨_, e, hw, hc, ⟨fun _ => hw, fun _ => ⟨Nat.le_refl _, by
    show _ ∨ _ → _; intro h; rcases h with h | h <;> exact absurd h (Nat.lt_irrefl _)⟩, Sub.refl _, fun _ h => Or.inl h,
    fun g hs => ?_⟩, fun h' => ⟨hw, h'.all, h'.removed⟩, fun r hr => hr, rfl⟩
  have h := hs.gh
  have hgh : Gh { s with hp := hp, hpElim := hpElim, hpNext := hpNext } g :=
    ⟨h.fits, h.empty, h.count, h.house, h.range, h.distinct, h.src, h.lower, h.nextLe, h.first⟩
  exact ⟨Run.of_eq rfl rfl rfl rfl, g, hgh, fun _ => ⟨hgh, hs.closed, hs.fresh, hs.gsrc, hs.pend⟩⟩

/-- `Strategy::deduce_one` and `Strategy::deduce_all` -/
theorem deduce_step {sts : List Strategy} {st : Strategy} (hst : st ∈ sts) (hav : st ≠ .avoidableRectangles) {fuel : Nat}
    (hf : 1000 ≤ fuel) {stop isFirst : Bool} (hb : stop = !isFirst) {s : Solver} (h : W 0 s) :
    Res.Post (st.deduce fuel stop isFirst s) (Step1 sts s) False := by
  have hsub : ∀ (size : UInt8), subsetStrategy false size.toNat = some st →
      Res.Post (s.findNakedSubsets fuel size stop) (Step1 sts s) False := by
    intro size hs
    exact search_step hst hf h (fun hu => by
      exfalso
      unfold subsetStrategy at hs
      split at hs <;> first | contradiction | (cases hs; first | contradiction | cases hu))
      (fun s1 h1 _ => nakedSubsets_search h1.w.fits h1.removed hs stop)
  have hhid : ∀ (size : UInt8), subsetStrategy true size.toNat = some st →
      Res.Post (s.findHiddenSubsets fuel size stop) (Step1 sts s) False := by
    intro size hs
    unfold Solver.findHiddenSubsets andThen
    refine Res.Post.bind (update_step (sts := sts) (fn := false) (fun h => by cases h) hf h) ?_
    rintro ⟨s1, ok⟩ ⟨h1, h2⟩
    cases ok
    · exact h1
    · simp only [if_true]
      obtain ⟨h3, h4⟩ := h2 rfl
      obtain ⟨s2, e, _, h6, h7, h9, _⟩ := updateHousePoss_step (sts := sts) h4.w
      have h9 := h9 h4
      rw [e, Res.ok_bind]
      refine Res.Post.bind (hiddenSubsets_search h9.w.fitsP h6 hs stop) ?_
      rintro ⟨s3, b⟩ h10
      refine StepN.after1 (s1 := s1) (StepN.after (s1 := s2) ⟨⟨fun _ => ?_, fun _ => h10.meas, ?_, ?_, fun g hs => ?_⟩,
        fun hc => Bool.noConfusion hc⟩ h7) h1
      · obtain ⟨news, ds, rfl, _⟩ := h10
        exact h9.w.addElim _ _
      · obtain ⟨news, ds, rfl, _⟩ := h10
        exact Sub.refl _
      · obtain ⟨news, ds, rfl, _⟩ := h10
        exact fun e he => Or.inl he
      · have hset : Settled s2 g := ⟨h9, hs⟩
        have hrun := hset.run hst (fun _ => h6) h10
        obtain ⟨news, ds, rfl, hx⟩ := h10
        exact ⟨hrun, g, hs.gh.addElim _ _, fun _ => hs.addElim h9.w.elimLe _ _ hx.new⟩
  have hfish : ∀ (size : UInt8), fishStrategy size.toNat = some st →
      Res.Post (s.findFish fuel size stop) (Step1 sts s) False := by
    intro size hs
    obtain ⟨s2, e, h5, h6, h7, _, h8, h9⟩ := updateHousePoss_step (sts := sts) h
    unfold Solver.findFish
    rw [e, Res.ok_bind]
    refine Res.Post.mono (search_step hst hf h5 (fun _ => h6)
      (fun s1 h1 _ => fish_search h1.w.fitsP h1.removed hs stop)) (fun r hr => ⟨hr.toStepN.after h7, h8 r hr.first,
        fun hr' g hs e he => by
          obtain ⟨-, g1, -, sem1⟩ := h7.sem g hs
          exact hr.filled hr' g1 (sem1 rfl) e (by rw [h9]; exact he)⟩) id
  have hmut : ∀ (size : UInt8), size ≠ 0 → Res.Post (s.findMutantFish fuel size stop) (Step1 sts s) False := by
    intro size hs
    obtain ⟨s2, e, h5, h6, h7, _, h8, h9⟩ := updateHousePoss_step (sts := sts) h
    unfold Solver.findMutantFish
    rw [e, Res.ok_bind]
    refine Res.Post.mono (search_step (f := fun s1 => forUntil (fun s' (digit : Digit) => do
      let houses ← items 27 (ALL 32 27)
      walk (baseVisit s1.cp digit size stop) (baseStep s1.hp digit size) houses (NONE 32, NONE 128) s')
      (List.finRange 9) s1) hst hf h5 (fun _ => h6) ?_) (fun r hr => ⟨hr.toStepN.after h7, h8 r hr.first,
        fun hr' g hs e he => by
          obtain ⟨-, g1, -, sem1⟩ := h7.sem g hs
          exact hr.filled hr' g1 (sem1 rfl) e (by rw [h9]; exact he)⟩) id
    intro s1 h1 _
    refine Res.Post.mono (mutantFish_search h1.w.fitsP hs stop) ?_ id
    rintro ⟨s3, b⟩ h3
    have h3 : s3 = s1 := h3
    subst h3
    exact Ext.refl _
  unfold Strategy.deduce
  cases st with
  | nakedSingles =>
    cases isFirst
    · subst hb
      exact findNakedSingles_step hst hf h
    · subst hb
      exact Res.Post.mono (update_step (sts := sts) (fun _ => hst) hf h) (fun r hr => hr.1) id
  | hiddenSingles => exact findHiddenSingles_step hst hf stop h
  | lockedCandidates =>
    exact search_step hst hf h (fun hu => by cases hu) (fun s1 h1 _ => locked_search h1.w.fits h1.removed stop)
  | nakedPairs => exact hsub 2 rfl
  | nakedTriples => exact hsub 3 rfl
  | nakedQuads => exact hsub 4 rfl
  | hiddenPairs => exact hhid 2 rfl
  | hiddenTriples => exact hhid 3 rfl
  | hiddenQuads => exact hhid 4 rfl
  | xWing => exact hfish 2 rfl
  | swordfish => exact hfish 3 rfl
  | jellyfish => exact hfish 4 rfl
  | xyWing =>
    exact search_step hst hf h (fun hu => by cases hu) (fun s1 h1 _ => xyWing_search h1.w.fits h1.removed stop)
  | xyzWing =>
    exact search_step hst hf h (fun hu => by cases hu) (fun s1 h1 _ => xyzWing_search h1.w.fits h1.removed stop)
  | mutantSwordfish => exact hmut 3 (by decide)
  | mutantJellyfish => exact hmut 4 (by decide)
  | avoidableRectangles => exact absurd rfl hav

/-! ## The loop -/

theorem restLoop_step {sts : List Strategy} {fuel : Nat} (hf : 1000 ≤ fuel) (n m : Nat) : ∀ (rest : List Strategy)
    (s : Solver), (∀ st ∈ rest, st ∈ sts ∧ st ≠ .avoidableRectangles) → W 0 s →
    Res.Post (restLoop fuel n m rest s) (fun r => Step sts s r ∧
      (r.2 = true → n < r.1.deduced.length ∨ m < r.1.eliminated.length)) False := by
  intro rest
  induction rest with
  | nil =>
    intro s _ h
    exact ⟨⟨fun _ => h, fun _ => Meas.refl s, Sub.refl _, fun _ h => Or.inl h,
      fun g hs => ⟨Run.refl s, g, hs.gh, fun _ => hs⟩⟩, fun hc => by cases hc⟩
  | cons st rest ih =>
    intro s hst h
    unfold restLoop
    obtain ⟨a1, a2⟩ := hst st (by simp)
    refine Res.Post.bind (deduce_step a1 a2 hf (by rfl) h) ?_
    rintro ⟨s1, ok⟩ ⟨⟨h1, _⟩, _⟩
    cases ok
    · exact ⟨h1, fun hc => by cases hc⟩
    · show Res.Post (if _ then _ else _) _ _
      split
      · rename_i hc
        contradiction
      · split
        · rename_i hc
          refine ⟨h1, fun _ => ?_⟩
          rw [Bool.or_eq_true, decide_eq_true_eq, decide_eq_true_eq] at hc
          exact hc
        · refine Res.Post.mono (ih s1 (fun st hst' => hst st (by simp [hst'])) (h1.w rfl)) ?_ id
          rintro r ⟨h3, h4⟩
          exact ⟨h3.after h1, h4⟩

/-- What is known of the state at the end. -/
structure Final (sts : List Strategy) (s s' : Solver) : Prop where
  sub : Sub s'.cp s.cp
  new : ∀ e ∈ s'.deduced, e ∈ s.deduced ∨ s.cp[e.cell].getLsbD e.digit.val = true
  sem : ∀ g, Sem s g → Run sts s s' ∧ ∃ g', Gh s' g'

theorem Final.refl {sts : List Strategy} (s : Solver) : Final sts s s :=
  ⟨Sub.refl _, fun _ h => Or.inl h, fun g hs => ⟨Run.refl s, g, hs.gh⟩⟩

theorem Final.of_step {sts : List Strategy} {s s' : Solver} {b : Bool} (h : Step sts s (s', b)) : Final sts s s' := by
  refine ⟨h.sub, h.new, fun g hs => ?_⟩
  obtain ⟨h1, g', h2, _⟩ := h.sem g hs
  exact ⟨h1, g', h2⟩

theorem Final.after {sts : List Strategy} {s s1 s2 : Solver} (h : Final sts s1 s2) (h1 : Step sts s (s1, true)) :
    Final sts s s2 := by
  refine ⟨h.sub.trans h1.sub, fun e he => ?_, fun g hs => ?_⟩
  · rcases h.new e he with h2 | h2
    · exact h1.new e h2
    · exact Or.inr (h1.sub _ _ h2)
  obtain ⟨r1, g1, _, sem1⟩ := h1.sem g hs
  obtain ⟨r2, g2⟩ := h.sem g1 (sem1 rfl)
  exact ⟨r1.trans r2, g2⟩

/-- The eliminated candidates are not entered when the sudoku gets solved. -/
def Respects (s s' : Solver) : Prop :=
  s.nSolved ≠ 81 → s'.nSolved = 81 → ∀ X : List Candidate, (∀ e ∈ X, e ∈ s.eliminated) → (∀ e ∈ s.deduced, e ∉ X) →
    ∀ e ∈ s'.deduced, e ∉ X

theorem Respects.of_first {s s1 s' : Solver} {ok : Bool} (h : First s (s1, ok)) (hf : ok = false → s' = s1)
    (hs : Sub s'.cp s1.cp) (hn : ∀ e ∈ s'.deduced, e ∈ s1.deduced ∨ s1.cp[e.cell].getLsbD e.digit.val = true) :
    Respects s s' := by
  intro h1 h2 X h3 h4
  rcases h X h3 h4 with h5 | ⟨h5, h6⟩
  · exact (h5.keep hs hn).2
  · have h6 : s1.nSolved = s.nSolved := h6
    rw [hf h5, h6] at h2
    exact absurd h2 h1

theorem solveLoop_spec {first : Strategy} {rest : List Strategy}
    (hav : ∀ st ∈ first :: rest, st ≠ .avoidableRectangles) {fuel0 : Nat} (hf : 1000 ≤ fuel0) : ∀ (fuel : Nat) (s : Solver),
    W 0 s → 891 < fuel + gain s →
    Res.Post (solveLoop fuel0 first rest fuel s) (fun s' => Final (first :: rest) s s' ∧ Respects s s') False := by
  intro fuel
  induction fuel with
  | zero =>
    intro s _ hlt
    have := gain_le s
    omega
  | succ fuel ih =>
    intro s h hlt
    unfold solveLoop
    split
    · rename_i hsol
      refine ⟨Final.refl s, fun hns => ?_⟩
      unfold Solver.isSolved at hsol
      exact absurd (by simpa using hsol) hns
    · dsimp only
      refine Res.Post.bind (deduce_step (sts := first :: rest) (by simp) (hav first (by simp)) hf (by rfl) h) ?_
      rintro ⟨s1, ok⟩ ⟨⟨h1, _⟩, hfirst⟩
      cases ok
      · exact ⟨Final.of_step h1, Respects.of_first hfirst (fun _ => rfl) (Sub.refl _) (fun _ h => Or.inl h)⟩
      · show Res.Post (if _ then _ else _) _ _
        split
        · rename_i hc
          contradiction
        · split
          · rename_i hlen
            have hs : gain s < gain s1 := (h1.meas rfl).strict (Or.inl hlen)
            exact Res.Post.mono (ih s1 (h1.w rfl) (by omega)) (fun s2 h4 => ⟨h4.1.after h1,
              Respects.of_first hfirst (fun h => by cases h) h4.1.sub h4.1.new⟩) id
          · refine Res.Post.bind (restLoop_step (sts := first :: rest) hf s.deduced.length s.eliminated.length rest s1
              (fun st hst => ⟨by simp [hst], hav st (by simp [hst])⟩) (h1.w rfl)) ?_
            rintro ⟨s2, again⟩ ⟨h4, h5⟩
            cases again
            · exact ⟨Final.of_step (h4.after h1), Respects.of_first hfirst (fun h => by cases h) h4.sub h4.new⟩
            · have hs : gain s < gain s2 := ((h1.meas rfl).trans (h4.meas rfl)).strict (h5 rfl)
              refine Res.Post.mono (ih s2 (h4.w rfl) (by omega)) (fun s3 h8 => ?_) id
              have h9 := h8.1.after h4
              exact ⟨h9.after h1, Respects.of_first hfirst (fun h => by cases h) h9.sub h9.new⟩

theorem trySolve_spec {sts : List Strategy} (hav : ∀ st ∈ sts, st ≠ .avoidableRectangles) {fuel : Nat} (hf : 1000 ≤ fuel)
    {s : Solver} (h : W 0 s) : Res.Post (s.trySolve fuel sts) (fun s' => Final sts s s' ∧ Respects s s') False := by
  unfold Solver.trySolve
  match sts, hav with
  | [], _ => exact ⟨Final.refl s, fun h1 h2 => absurd h2 h1⟩
  | first :: rest, hav => exact solveLoop_spec hav hf fuel s h (by omega)

end Verif.Strat
