import Verif.Proofs.Easier

/-! # The strategy solver: the patterns are those of the candidates when a strategy is called -/
namespace Verif.Strat

open Bitset Generator

/-- Deductions of `st` were added whose patterns are seen on the candidates of `s`. -/
def Shows (st : Strategy) (s s' : Solver) : Prop :=
  ∃ ds, s'.deductions = s.deductions ++ ds ∧
    ∀ d ∈ ds, Expl (Pattern.Matches (CandL s.deduced s.eliminated) st) s'.eliminated d

variable {st : Strategy} {t : Grid}

/-- Only the caches differ. -/
def SameLists (s s' : Solver) : Prop :=
  s'.deductions = s.deductions ∧ s'.deduced = s.deduced ∧ s'.eliminated = s.eliminated

theorem SameLists.trans {a b c : Solver} (h : SameLists a b) (h' : SameLists b c) : SameLists a c :=
  ⟨h'.1.trans h.1, h'.2.1.trans h.2.1, h'.2.2.trans h.2.2⟩

theorem Shows.none {s s' : Solver} (h : SameLists s s') : Shows st s s' := ⟨[], by simp [h.1], by simp⟩

theorem Shows.after {s s1 s2 : Solver} (h : Shows st s1 s2) (h1 : SameLists s s1) : Shows st s s2 := by
  obtain ⟨ds, a1, a2⟩ := h
  refine ⟨ds, by rw [a1, h1.1], ?_⟩
  rw [h1.2.1, h1.2.2] at a2
  exact a2

theorem update_same {fuel : Nat} (hf : 1000 ≤ fuel) {s : Solver} (h : W 0 s) {r : Solver × Bool}
    (he : s.update fuel false true = .ok r) : SameLists s r.1 := by
  have hu := update_w (k := 0) (by omega) false true (fuel := fuel) (by omega) s h
  rw [he] at hu
  obtain ⟨ext, h1, h2, h3⟩ := hu.2.1.ded
  rw [h3 rfl] at h1 h2
  exact ⟨by rw [h2, List.map_nil, List.append_nil], by rw [h1, List.append_nil], hu.2.1.elim⟩

theorem search_shows (ht : Solved t) {s : Solver} {g : Grid} (h : Settled s g) (ha : Agree t s)
    (hc : usesHp st = true → HpCurrent s) {s' : Solver} (hx : Ext (NewElim s) (DedOf st s.cp s.hp) s s') : Shows st s s' := by
  obtain ⟨news, ds, e, hb⟩ := hx
  refine ⟨ds, by rw [e]; rfl, fun d hd more => ?_⟩
  obtain ⟨d', d1, d2, -, d3⟩ := hb.expl d hd more
  refine ⟨d', by rw [e]; exact d1, ?_⟩
  rw [← h.cands ht ha]
  exact d3 fun hu => h.hpCp (hc hu) ht ha

theorem update_shows (ht : Solved t) {fuel : Nat} (hf : 1000 ≤ fuel) {s : Solver} (h : W 0 s) {g : Grid}
    (hs : Sem s g) (ha : Agree t s) (hcur : usesHp st = true → HpCurrent s) {f : Solver → Res (Solver × Bool)}
    {r : Solver × Bool} (he : andThen (s.update fuel false true) (fun s1 => do
      let (s2, _) ← f s1
      .ok (s2, true)) = .ok r)
    (hF : ∀ s1, Base s1 → Res.Post (f s1) (fun r => Ext (NewElim s1) (DedOf st s1.cp s1.hp) s1 r.1) False) :
    Shows st s r.1 := by
  unfold andThen at he
  obtain ⟨⟨s1, ok⟩, h1, h2⟩ := bind_ok he
  have hu := update_step (sts := []) (fn := false) (fun h => by cases h) hf h
  rw [h1] at hu
  have hel : SameLists s s1 := update_same hf h h1
  cases ok with
  | false => cases h2; exact Shows.none hel
  | true =>
    simp only [if_true] at h2
    obtain ⟨h3, h4⟩ := hu.2 rfl
    have k2 := hF s1 h4
    obtain ⟨⟨s2, b'⟩, h5, h6⟩ := bind_ok h2
    cases h6
    rw [h5] at k2
    obtain ⟨hrun, g', -, hsem⟩ := hu.1.sem g hs
    have hc : usesHp st = true → HpCurrent s1 := by
      intro hu x d p
      have hh := hcur hu x d p
      show s1.hp[x][d].getLsbD p.val = true ↔ _
      rw [h3.hp, hel.2.1, h3.elim]
      exact hh
    exact (search_shows ht ⟨h4, hsem rfl⟩ (hrun.pres t ht ha) hc k2).after hel

/-- What a strategy that excludes candidates adds. -/
theorem deduce_shows (ht : Solved t) (h1 : st ≠ .nakedSingles) (h2 : st ≠ .hiddenSingles) {fuel : Nat}
    (hf : 1000 ≤ fuel) {stop isFirst : Bool} {s : Solver} (h : W 0 s) {g : Grid} (hs : Sem s g) (ha : Agree t s)
    {r : Solver × Bool} (he : st.deduce fuel stop isFirst s = .ok r) : Shows st s r.1 := by
  have hsub : ∀ (size : UInt8), subsetStrategy false size.toNat = some st → usesHp st = false →
      s.findNakedSubsets fuel size stop = .ok r → Shows st s r.1 := by
    intro size hst hu he
    exact update_shows ht hf h hs ha (fun h => by rw [hu] at h; cases h) he fun s1 k =>
      nakedSubsets_search k.w.fits k.removed hst stop
  have hhid : ∀ (size : UInt8), subsetStrategy true size.toNat = some st →
      s.findHiddenSubsets fuel size stop = .ok r → Shows st s r.1 := by
    intro size hst he
    unfold Solver.findHiddenSubsets andThen at he
    obtain ⟨⟨s1, ok⟩, h1, h2⟩ := bind_ok he
    have hu := update_step (sts := []) (fn := false) (fun h => by cases h) hf h
    rw [h1] at hu
    have hel : SameLists s s1 := update_same hf h h1
    cases ok with
    | false => cases h2; exact Shows.none hel
    | true =>
      simp only [if_true] at h2
      have hb1 : Base s1 := (hu.2 rfl).2
      obtain ⟨s2, e, _, h6, h7, h9, _⟩ := updateHousePoss_step (sts := []) hb1.w
      have h9 := h9 hb1
      obtain ⟨hp, hpE, hpN, e', _⟩ := updateHousePoss_w (k := 0) (by omega) hb1.w
      have hel2 : SameLists s1 s2 := by
        rw [e] at e'
        rw [Res.ok.inj e']
        exact ⟨rfl, rfl, rfl⟩
      rw [e, Res.ok_bind] at h2
      obtain ⟨⟨s3, b'⟩, h3, h4⟩ := bind_ok h2
      cases h4
      have hx := hiddenSubsets_search h9.w.fitsP h6 hst stop
      rw [h3] at hx
      obtain ⟨hrun, g', -, hsem⟩ := hu.1.sem g hs
      obtain ⟨hrun2, g2, -, hsem2⟩ := h7.sem g' (hsem rfl)
      exact (search_shows ht ⟨h9, hsem2 rfl⟩ (hrun2.pres t ht (hrun.pres t ht ha)) (fun _ => h6) hx).after (hel.trans hel2)
  have hpre : ∃ s2, s.updateHousePoss = .ok s2 ∧ W 0 s2 ∧ HpCurrent s2 ∧ SameLists s s2 ∧
      ∃ g2, Sem s2 g2 ∧ Agree t s2 := by
    obtain ⟨s2, e, h5, h6, h7, _, _⟩ := updateHousePoss_step (sts := []) h
    obtain ⟨hp, hpE, hpN, e', _⟩ := updateHousePoss_w (k := 0) (by omega) h
    rw [e] at e'
    have e' := Res.ok.inj e'
    obtain ⟨hrun2, g2, -, hsem2⟩ := h7.sem g hs
    exact ⟨s2, e, h5, h6, by rw [e']; exact ⟨rfl, rfl, rfl⟩, g2, hsem2 rfl, hrun2.pres t ht ha⟩
  have hfish : ∀ (size : UInt8), fishStrategy size.toNat = some st →
      s.findFish fuel size stop = .ok r → Shows st s r.1 := by
    intro size hst he
    obtain ⟨s2, e, h5, h6, hel, g2, hs2, ha2⟩ := hpre
    unfold Solver.findFish at he
    rw [e, Res.ok_bind] at he
    exact (update_shows ht hf h5 hs2 ha2 (fun _ => h6) he fun s1 k => fish_search k.w.fitsP k.removed hst stop).after hel
  have hmut : ∀ (size : UInt8), size ≠ 0 → s.findMutantFish fuel size stop = .ok r → Shows st s r.1 := by
    intro size h0 he
    obtain ⟨s2, e, h5, h6, hel, g2, hs2, ha2⟩ := hpre
    unfold Solver.findMutantFish at he
    rw [e, Res.ok_bind] at he
    unfold andThen at he
    obtain ⟨⟨s1, ok⟩, h1, h2⟩ := bind_ok he
    have hu := update_step (sts := []) (fn := false) (fun h => by cases h) hf h5
    rw [h1] at hu
    have hel1 : SameLists s2 s1 := update_same hf h5 h1
    cases ok with
    | false => cases h2; exact Shows.none (hel.trans hel1)
    | true =>
      simp only [if_true] at h2
      obtain ⟨⟨s3, b'⟩, h3, h4⟩ := bind_ok h2
      cases h4
      have hx := mutantFish_search (hu.2 rfl).2.w.fitsP h0 stop
      rw [h3] at hx
      have hx : s3 = s1 := hx
      subst hx
      exact Shows.none (hel.trans hel1)
  unfold Strategy.deduce at he
  cases st with
  | nakedSingles => exact absurd rfl h1
  | hiddenSingles => exact absurd rfl h2
  | lockedCandidates =>
    exact update_shows ht hf h hs ha (fun h => by cases h) he fun s1 k => locked_search k.w.fits k.removed stop
  | nakedPairs => exact hsub 2 rfl rfl he
  | nakedTriples => exact hsub 3 rfl rfl he
  | nakedQuads => exact hsub 4 rfl rfl he
  | hiddenPairs => exact hhid 2 rfl he
  | hiddenTriples => exact hhid 3 rfl he
  | hiddenQuads => exact hhid 4 rfl he
  | xWing => exact hfish 2 rfl he
  | swordfish => exact hfish 3 rfl he
  | jellyfish => exact hfish 4 rfl he
  | xyWing => exact update_shows ht hf h hs ha (fun h => by cases h) he fun s1 k => xyWing_search k.w.fits k.removed stop
  | xyzWing => exact update_shows ht hf h hs ha (fun h => by cases h) he fun s1 k => xyzWing_search k.w.fits k.removed stop
  | mutantSwordfish => exact hmut 3 (by decide) he
  | mutantJellyfish => exact hmut 4 (by decide) he
  | avoidableRectangles => cases he

/-! ## Following `solve` -/

/-- The deduction with number `i` of `s'` enters a digit, or its pattern is seen in a state from which on only deductions
of its strategy were made, and only this one unless it is the first strategy. -/
def Seen (sts : List Strategy) (first : Strategy) (s s' : Solver) (i : Nat) : Prop :=
  ∃ d st, s'.deductions[i]? = some d ∧ Expl (fun d' => d'.strategy = .ok st) s'.eliminated d ∧
    (st = .nakedSingles ∨ st = .hiddenSingles ∨ ∃ a, Final sts s a ∧ Begins a s' ∧ a.deductions.length ≤ i ∧
      Expl (Pattern.Matches (CandL a.deduced a.eliminated) st) s'.eliminated d ∧ (st ≠ first → a.deductions.length = i) ∧
      ∀ j d', a.deductions.length ≤ j → j ≤ i → s'.deductions[j]? = some d' →
        Expl (fun x => x.strategy = .ok st) s'.eliminated d')

variable {sts : List Strategy} {first : Strategy} {rest : List Strategy}

theorem Seen.after {s s1 s' : Solver} {i : Nat} (h : Seen sts first s1 s' i) (h1 : Step sts s (s1, true)) :
    Seen sts first s s' i := by
  obtain ⟨d, st, a1, a2, a3⟩ := h
  refine ⟨d, st, a1, a2, a3.imp_right (Or.imp_right ?_)⟩
  rintro ⟨a, b2, b3⟩
  exact ⟨a, b2.after h1, b3⟩

theorem Seen.extend {s s1 s' : Solver} {i : Nat} (h : Seen sts first s s1 i) (h1 : Begins s1 s') :
    Seen sts first s s' i := by
  obtain ⟨d, st, a1, a2, a3⟩ := h
  obtain ⟨⟨ds, h2⟩, es, h3⟩ := id h1
  have hi := (List.getElem?_eq_some_iff.mp a1).1
  refine ⟨d, st, ?_, by rw [h3]; exact a2.append es, a3.imp_right (Or.imp_right ?_)⟩
  · rw [h2, List.getElem?_append_left hi]
    exact a1
  · rintro ⟨a, b2, b3, b4, b5, b6, b7⟩
    refine ⟨a, b2, b3.trans h1, b4, by rw [h3]; exact b5.append es, b6, fun j d' k1 k2 k3 => ?_⟩
    rw [h2, List.getElem?_append_left (by omega)] at k3
    rw [h3]
    exact (b7 j d' k1 k2 k3).append es

/-- One call of a strategy. -/
theorem deduce_seen (ht : Solved t) {fuel : Nat} (hf : 1000 ≤ fuel) {stop : Bool} (hst : st ∈ sts) (hfirst : stop = true ∨ st = first)
    {s : Solver} (h : W 0 s) {g : Grid} (hs : Sem s g) (ha : Agree t s) {r : Solver × Bool}
    (he : st.deduce fuel stop (!stop) s = .ok r) :
    Begins s r.1 ∧ ∀ i, s.deductions.length ≤ i → i < r.1.deductions.length → Seen sts first s r.1 i := by
  have hav : st ≠ .avoidableRectangles := by
    rintro rfl
    cases he
  have hstep := deduce_step (sts := sts) hst hav hf (stop := stop) (isFirst := !stop) (by simp) h
  have hmk := deduce_marks hf (stop := stop) (isFirst := !stop) (by simp) h he
  rw [he] at hstep
  obtain ⟨r1, -⟩ := hstep.sem g hs
  have hb : Begins s r.1 := hmk.begins r1
  refine ⟨hb, fun i h3 h4 => ?_⟩
  obtain ⟨ds, k1, k2, k3⟩ := hmk
  have mem : ∀ j d', s.deductions.length ≤ j → r.1.deductions[j]? = some d' → d' ∈ ds := by
    intro j d' hj hd
    rw [k1, List.getElem?_append_right hj] at hd
    exact List.mem_of_getElem? hd
  obtain ⟨d, hd⟩ : ∃ d, r.1.deductions[i]? = some d := ⟨_, List.getElem?_eq_getElem h4⟩
  refine ⟨d, st, hd, k3 _ (mem i d h3 hd), ?_⟩
  by_cases hn : st = .nakedSingles
  · exact Or.inl hn
  by_cases hh : st = .hiddenSingles
  · exact Or.inr (Or.inl hh)
  obtain ⟨ds', m1, m2⟩ := deduce_shows ht hn hh hf h hs ha he
  have : ds' = ds := List.append_cancel_left (m1.symm.trans k1)
  subst this
  refine Or.inr (Or.inr ⟨s, Final.refl s, hb, h3, m2 _ (mem i d h3 hd), fun hne => ?_,
    fun j d' j1 j2 j3 => k3 _ (mem j d' j1 j3)⟩)
  have := k2 (hfirst.resolve_right hne)
  rw [k1, List.length_append] at h4
  omega

theorem restLoop_seen {fuel : Nat} (hf : 1000 ≤ fuel) (ht : Solved t) {n m : Nat} :
    ∀ (rs : List Strategy) (s : Solver) (r : Solver × Bool) (g : Grid), (∀ st ∈ rs, st ∈ sts) → W 0 s → Sem s g → Agree t s →
    restLoop fuel n m rs s = .ok r →
    Begins s r.1 ∧ ∀ i, s.deductions.length ≤ i → i < r.1.deductions.length → Seen sts first s r.1 i := by
  intro rs
  induction rs with
  | nil =>
    intro s r g _ _ _ _ he
    cases he
    exact ⟨Begins.refl s, fun i h1 h2 => absurd h1 (by dsimp only at h2; omega)⟩
  | cons st rs ih =>
    intro s r g hsts h hs ha he
    unfold restLoop at he
    obtain ⟨⟨s1, ok⟩, h1, h2⟩ := bind_ok he
    have hav : st ≠ .avoidableRectangles := by
      rintro rfl
      cases h1
    have hst := deduce_step (sts := sts) (hsts st (by simp)) hav hf (stop := true) (isFirst := false) rfl h
    obtain ⟨hb, here⟩ := deduce_seen (sts := sts) (first := first) ht hf (stop := true) (hsts st (by simp)) (Or.inl rfl) h hs ha h1
    rw [h1] at hst
    obtain ⟨r1, g1, _, sem1⟩ := hst.sem g hs
    cases ok
    · cases h2
      exact ⟨hb, here⟩
    · simp only [Bool.not_true, Bool.false_eq_true, if_false] at h2
      split at h2
      · cases h2
        exact ⟨hb, here⟩
      · obtain ⟨i1, i2⟩ := ih s1 r g1 (fun st hst => hsts st (by simp [hst])) (hst.w rfl) (sem1 rfl) (r1.pres t ht ha) h2
        refine ⟨hb.trans i1, fun i h3 h4 => ?_⟩
        by_cases h5 : i < s1.deductions.length
        · exact (here i h3 h5).extend i1
        · exact (i2 i (by omega) h4).after hst.toStep

theorem solveLoop_seen {fuel0 : Nat} (hf : 1000 ≤ fuel0) (ht : Solved t) (hsts : ∀ st ∈ first :: rest, st ∈ sts) :
    ∀ (fuel : Nat) (s s' : Solver) (g : Grid), W 0 s → Sem s g → Agree t s →
    solveLoop fuel0 first rest fuel s = .ok s' →
    Begins s s' ∧ ∀ i, s.deductions.length ≤ i → i < s'.deductions.length → Seen sts first s s' i := by
  intro fuel
  induction fuel with
  | zero => intro s s' g _ _ _ he; cases he
  | succ fuel ih =>
    intro s s' g h hs ha he
    unfold solveLoop at he
    split at he
    · cases he
      exact ⟨Begins.refl s, fun i h1 h2 => by omega⟩
    · dsimp only at he
      obtain ⟨⟨s1, ok⟩, h1, h2⟩ := bind_ok he
      have hav : first ≠ .avoidableRectangles := by
        rintro rfl
        cases h1
      have hst := deduce_step (sts := sts) (hsts first (by simp)) hav hf (stop := false) (isFirst := true) rfl h
      obtain ⟨hb, here⟩ := deduce_seen (sts := sts) (first := first) ht hf (stop := false) (hsts first (by simp)) (Or.inr rfl) h hs ha h1
      rw [h1] at hst
      obtain ⟨r1, g1, _, sem1⟩ := hst.sem g hs
      cases ok
      · cases h2
        exact ⟨hb, here⟩
      · simp only [Bool.not_true, Bool.false_eq_true, if_false] at h2
        have ha1 := r1.pres t ht ha
        split at h2
        · obtain ⟨i1, i2⟩ := ih s1 s' g1 (hst.w rfl) (sem1 rfl) ha1 h2
          refine ⟨hb.trans i1, fun i h3 h4 => ?_⟩
          by_cases h5 : i < s1.deductions.length
          · exact (here i h3 h5).extend i1
          · exact (i2 i (by omega) h4).after hst.toStep
        · obtain ⟨⟨s2, again⟩, h3, h4⟩ := bind_ok h2
          have hrest : ∀ st ∈ usable rest, st ∈ sts ∧ st ≠ .avoidableRectangles :=
            fun st hst => ⟨hsts st (by simp [usable_sub rest st hst]), usable_ne rest st hst⟩
          have h5 := restLoop_step (sts := sts) hf s.deduced.length s.eliminated.length (usable rest) s1 hrest (hst.w rfl)
          rw [restLoop_usable h3] at h5
          obtain ⟨i1, i2⟩ := restLoop_seen (first := first) (sts := sts) hf ht rest s1 (s2, again) g1
            (fun st hst => hsts st (by simp [hst])) (hst.w rfl) (sem1 rfl) ha1 h3
          dsimp only at i1 i2
          have upto : ∀ i, s.deductions.length ≤ i → i < s2.deductions.length → Seen sts first s s2 i := by
            intro i h7 h8
            by_cases h9 : i < s1.deductions.length
            · exact (here i h7 h9).extend i1
            · exact (i2 i (by omega) h8).after hst.toStep
          cases again
          · cases h4
            exact ⟨hb.trans i1, upto⟩
          · obtain ⟨r2, g2, _, sem2⟩ := h5.1.sem g1 (sem1 rfl)
            obtain ⟨j1, j2⟩ := ih s2 s' g2 (h5.1.w rfl) (sem2 rfl) (r2.pres t ht ha1) h4
            refine ⟨(hb.trans i1).trans j1, fun i h7 h8 => ?_⟩
            by_cases h9 : i < s2.deductions.length
            · exact (upto i h7 h9).extend j1
            · exact (j2 i (by omega) h8).after (h5.1.after hst.toStep)

/-- Reading a deduction. -/
theorem get_expl {s' : Solver} {i : Nat} {d : RangeDeduction} {Q : Deduction (List Candidate) → Prop}
    (hd : s'.deductions[i]? = some d) (h : Expl Q s'.eliminated d) : ∃ x, s'.outcome.2.get i = .ok (some x) ∧ Q x := by
  obtain ⟨d', k4, k5⟩ := h []
  rw [List.append_nil] at k4
  refine ⟨d', ?_, k5⟩
  unfold Deductions.get
  show (match s'.deductions[i]? with
    | none => Res.ok none
    | some d => do Res.ok (some (← withSlices d s'.eliminated))) = _
  rw [hd]
  show (withSlices d s'.eliminated >>= fun x => Res.ok (some x)) = _
  rw [k4]
  rfl

/-- Each deduction of a run that excludes candidates. -/
theorem solve_seen {fuel : Nat} (hf : 1000 ≤ fuel) {s : Solver} {g gh : Grid} {X : Fin 81 → Digit → Prop} (h : Inv s g X)
    (hs : Sem s gh) {r : Grid × Deductions} (hr : Returned fuel (first :: rest) s r)
    (ht : SolutionOf g X t) {i : Nat} {x : Deduction (List Candidate)}
    (hx : r.2.get i = .ok (some x)) (st : Strategy) (hst : x.strategy = .ok st) (hn : st ≠ .nakedSingles)
    (hh : st ≠ .hiddenSingles) :
    ∃ k ≤ i, Pattern.Matches (LeftBefore g X r.2 k) st x ∧ (st ≠ first → k = i) ∧
      ∀ j, k ≤ j → j ≤ i → ∃ y, r.2.get j = .ok (some y) ∧ y.strategy = .ok st := by
  obtain ⟨s', h1, h2⟩ : ∃ s', s.trySolve fuel (first :: rest) = .ok s' ∧ r = s'.outcome := by
    rcases hr with hr | hr
    all_goals
      unfold Solver.solve at hr
      obtain ⟨s', h1, h2⟩ := bind_ok hr
      dsimp only at h2
      split at h2
      all_goals cases h2
      exact ⟨s', h1, rfl⟩
  subst h2
  obtain ⟨-, h3⟩ := solveLoop_seen (sts := first :: rest) hf ht.1.1 (fun _ h => h) fuel s s' gh h.w hs (h.agree_of ht) h1
  have hi : i < s'.deductions.length := by
    by_contra hc
    unfold Deductions.get at hx
    have : s'.outcome.2.deductions[i]? = none := List.getElem?_eq_none (by show s'.deductions.length ≤ i; omega)
    rw [this] at hx
    cases hx
  obtain ⟨d, st', k1, k2, k3⟩ := h3 i (by rw [h.none]; exact Nat.zero_le i) hi
  obtain ⟨x', k4, k5⟩ := get_expl k1 k2
  rw [k4] at hx
  cases hx
  rw [k5] at hst
  cases hst
  obtain ⟨a, b2, b3, b4, b5, b6, b7⟩ := (k3.resolve_left hn).resolve_left hh
  refine ⟨a.deductions.length, b4, ?_, b6, fun j j1 j2 => ?_⟩
  · rw [leftBefore_eq h hs b2 b3]
    obtain ⟨x', k6, k7⟩ := get_expl k1 b5
    rw [k4] at k6
    cases k6
    exact k7
  · obtain ⟨d', hd'⟩ : ∃ d, s'.deductions[j]? = some d := ⟨_, List.getElem?_eq_getElem (by omega)⟩
    exact get_expl hd' (b7 j d' j1 j2 hd')

end Verif.Strat
