import Verif.Proofs.NakedAll
import Verif.Proofs.PrintRead
import Verif.Proofs.StratFresh

/-! # Printing a strategy solver -/
namespace Verif.Strat

open Bitset Verif.GridText

/-! ## Running the naked singles -/

/-- What is known of the state after running `NakedSingles` on a state with a solution. -/
structure Ran (s s' : Solver) (g' : Grid) : Prop where
  trace : Trace true s s'
  sem : Sem s' g'
  done : s'.nSolved = 81 ∨ (Base s' ∧ (Singles s → Singles s'))

theorem nakedRun {fuel0 : Nat} (hf : 1000 ≤ fuel0) : ∀ (fuel : Nat) (s s' : Solver), W 0 s →
    solveLoop fuel0 .nakedSingles [] fuel s = .ok s' → W 0 s' ∧ ∀ g t, Sem s g → Solved t → Agree t s →
      s.eliminated.length < 65536 → ∃ g', Ran s s' g' := by
  intro fuel
  induction fuel with
  | zero => intro s s' _ he; cases he
  | succ fuel ih =>
    intro s s' h he
    unfold solveLoop at he
    split at he
    · rename_i hsol
      cases he
      refine ⟨h, fun g t hs _ _ _ => ⟨g, Trace.refl s, hs, Or.inl ?_⟩⟩
      unfold Solver.isSolved at hsol
      simpa using hsol
    · dsimp only at he
      obtain ⟨⟨s1, ok⟩, h1, h2⟩ := bind_ok he
      have h1 : s.update fuel0 true true = .ok (s1, ok) := h1
      have hw := update_w (k := 0) (by omega) true true (fuel := fuel0) (by omega) s h
      rw [h1] at hw
      obtain ⟨w1, w2, w3, -⟩ := hw
      have w1 : W 0 s1 := w1
      have w2 : Fr true s s1 := w2
      have w3 : ok = true → Updated true 0 s s1 := w3
      cases ok
      · cases h2
        refine ⟨w1, fun g t hs ht ha hl => ?_⟩
        obtain ⟨g', p, _, q⟩ := update_g fuel0 true true hs.gh hs.closed hs.fresh _ h1
        exact absurd (Cons.of_solved ht ha) (q rfl (fun _ => hs.pend hl) t (fun _ => ht))
      · have hu := w3 rfl
        have hsem : ∀ g, Sem s g → ∃ g', Trace true s s1 ∧ Sem s1 g' := by
          intro g hs
          obtain ⟨g', p, q, _⟩ := update_g fuel0 true true hs.gh hs.closed hs.fresh _ h1
          obtain ⟨q1, q2⟩ := q rfl
          exact ⟨g', p.trace, p.gh, q1, q2, p.trace.gsrc hs.gsrc, Pend.of_all hu.cpE⟩
        have hsing : Singles s → Singles s1 := fun hs => update_singles hs h.elimLe h1
        simp only [Bool.not_true, Bool.false_eq_true, if_false] at h2
        split at h2
        · obtain ⟨i1, i2⟩ := ih s1 s' w1 h2
          refine ⟨i1, fun g t hs ht ha hl => ?_⟩
          obtain ⟨g1, t1, sem1⟩ := hsem g hs
          obtain ⟨g', r⟩ := i2 g1 t sem1 ht (t1.pres t ht ha) (by rw [t1.elim]; exact hl)
          exact ⟨g', t1.trans r.trace, r.sem, r.done.imp id (fun hd => ⟨hd.1, hd.2 ∘ hsing⟩)⟩
        · cases h2
          refine ⟨w1, fun g t hs ht ha hl => ?_⟩
          obtain ⟨g1, t1, sem1⟩ := hsem g hs
          exact ⟨g1, t1, sem1, Or.inr ⟨⟨w1, hu.all, hu.removed⟩, hsing⟩⟩

/-! ## Entering everything in the grid -/

theorem enterAll_cases (c : Fin 81) (l : List Candidate) : ∀ g : Grid, (enterAll g l)[c] = g[c] ∧ (∀ e ∈ l, e.cell ≠ c) ∨
    ∃ d : Digit, (enterAll g l)[c] = d.get ∧ (⟨c, d⟩ : Candidate) ∈ l := by
  induction l with
  | nil => intro g; exact Or.inl ⟨rfl, by simp⟩
  | cons x xs ih =>
    intro g
    have e : enterAll g (x :: xs) = enterAll (g.set x.cell x.digit.get) xs := rfl
    rw [e]
    rcases ih (g.set x.cell x.digit.get) with ⟨h1, h2⟩ | ⟨d, h1, h2⟩
    · by_cases hx : x.cell = c
      · right
        refine ⟨x.digit, ?_, ?_⟩
        · rw [h1, get_set_fin, if_pos hx]
        · subst hx
          exact List.mem_cons_self
      · left
        refine ⟨?_, fun y hy => ?_⟩
        · rw [h1, get_set_fin, if_neg hx]
        · rcases List.mem_cons.mp hy with rfl | hy
          · exact hx
          · exact h2 y hy
    · exact Or.inr ⟨d, h1, List.mem_cons_of_mem _ h2⟩

theorem W.updateGrid {k : Nat} {s : Solver} (h : W k s) : W k s.updateGrid := by
  refine ⟨h.fits, h.fitsH, h.fitsP, h.count, h.next, h.nextLe, h.elimLe, h.hpElimLe, h.hpNextLe, ?_, ?_,
    h.last, h.done, h.hpEx⟩
  · have := h.budget
    have hle : clueCount s.grid ≤ clueCount (enterAll s.grid s.deduced) := clueCount_mono (fun c hc => by
      rcases enterAll_cases c s.deduced s.grid with ⟨h1, _⟩ | ⟨d, h1, _⟩
      · rw [h1]; exact hc
      · rw [h1]; exact Digit.get_ne_zero _)
    show s.deduced.length ≤ 81 + k + clueCount (enterAll s.grid s.deduced) + emptyCount s.cp
    omega
  · intro c hc
    have hc : (enterAll s.grid s.deduced)[c] ≠ 0 := hc
    show ∃ d : Digit, (enterAll s.grid s.deduced)[c] = d.get
    rcases enterAll_cases c s.deduced s.grid with ⟨h1, _⟩ | ⟨d, h1, _⟩
    · rw [h1] at hc ⊢
      exact h.range c hc
    · exact ⟨d, h1⟩

theorem Sem.enter {s : Solver} {gh : Grid} (hs : Sem s gh) : Sem s.updateGrid gh := by
  have h' := hs.gh
  refine ⟨⟨h'.fits, h'.empty, h'.count, h'.house, h'.range, h'.distinct, h'.src, h'.lower, h'.nextLe, h'.first⟩, hs.closed,
    hs.fresh, fun c => ?_, hs.pend⟩
  show (enterAll s.grid s.deduced)[c] = 0 ∨ ∃ d : Digit, (enterAll s.grid s.deduced)[c] = d.get ∧ _ ∈ s.deduced
  rcases enterAll_cases c s.deduced s.grid with ⟨h1, _⟩ | ⟨d, h1, h2⟩
  · rw [h1]; exact hs.gsrc c
  · exact Or.inr ⟨d, h1, h2⟩

theorem Agree.enter {s : Solver} {t : Grid} (h : Agree t s) : Agree t s.updateGrid := by
  refine ⟨h.ded, h.elim, fun c hc => ?_⟩
  have hc : (enterAll s.grid s.deduced)[c] ≠ 0 := hc
  show t[c] = (enterAll s.grid s.deduced)[c]
  rcases enterAll_cases c s.deduced s.grid with ⟨h1, _⟩ | ⟨d, h1, h2⟩
  · rw [h1] at hc ⊢; exact h.grid c hc
  · rw [h1]; exact h.ded _ h2

/-! ## Removing conflicts -/

theorem batchRemoveNoCheck_keep (P : Solver → Prop)
    (hP : ∀ s (c : Fin 81), P s → s.cp[c] ≠ 0#16 → P (s.setCp c (without s.cp[c] (s.housesMask c)))) {s : Solver} (h : P s) :
    P s.batchRemoveNoCheck := by
  unfold Solver.batchRemoveNoCheck
  generalize List.finRange 81 = l
  induction l generalizing s with
  | nil => exact h
  | cons c l ih =>
    rw [List.foldl_cons]
    apply ih
    split
    · exact h
    · rename_i h0
      exact hP s c h (fun hc => h0 ((isEmpty_iff (by omega)).mpr hc))

theorem W.batchRemoveNoCheck {k : Nat} {s : Solver} (h : W k s) : W k s.batchRemoveNoCheck :=
  batchRemoveNoCheck_keep (W k) (fun s c hs _ => hs.setCp (sub_set_without s.cp c _)) h

theorem Sem.batchRemoveNoCheck {s : Solver} {g : Grid} (h : Sem s g) : Sem s.batchRemoveNoCheck g := by
  refine batchRemoveNoCheck_keep (fun s => Sem s g) (fun s c hs h0 => ?_) h
  have hg0 := hs.gh.open_of h0
  have hsub : Sub (s.setCp c (without s.cp[c] (s.housesMask c))).cp s.cp := sub_set_without s.cp c _
  refine ⟨hs.gh.setCp (fun d hd => Or.inl ((housesMask_g hs.gh c hg0 d).mp hd)), hs.closed.setCp c _, ?_, hs.gsrc, hs.pend⟩
  intro a b d hne hsh hga
  by_contra hb
  rw [Bool.not_eq_false] at hb
  have := hsub _ _ hb
  rw [hs.fresh a b d hne hsh hga] at this
  cases this

theorem batchRemoveNoCheck_frame (s : Solver) : s.batchRemoveNoCheck.deduced = s.deduced ∧
    s.batchRemoveNoCheck.eliminated = s.eliminated ∧ s.batchRemoveNoCheck.grid = s.grid ∧
    Sub s.batchRemoveNoCheck.cp s.cp :=
  batchRemoveNoCheck_keep (fun s1 => s1.deduced = s.deduced ∧ s1.eliminated = s.eliminated ∧ s1.grid = s.grid ∧ Sub s1.cp s.cp)
    (fun s1 c h _ => ⟨h.1, h.2.1, h.2.2.1, (sub_set_without s1.cp c _).trans h.2.2.2⟩) ⟨rfl, rfl, rfl, Sub.refl _⟩

/-! ## The printed state -/

theorem stateOf_w {k : Nat} {s : Solver} (h : W k s) (c : Fin 81) :
    (s.grid[c] = 0 ∧ s.stateOf c = .ok (.candidates s.cp[c])) ∨
      ∃ d : Digit, s.grid[c] = d.get ∧ s.stateOf c = .ok (.digit d) := by
  unfold Solver.stateOf
  by_cases h0 : s.grid[c] = 0
  · left
    rw [if_neg (by simpa using h0)]
    exact ⟨h0, rfl⟩
  · right
    obtain ⟨d, hd⟩ := h.range c h0
    refine ⟨d, hd, ?_⟩
    rw [if_pos h0]
    have h9 := d.isLt
    have ht : s.grid[c].toNat = d.val + 1 := by rw [hd, Digit.get_toNat]
    unfold digitOf
    rw [dif_pos (by omega)]
    show Res.ok _ = _
    congr 2
    apply Fin.ext
    show s.grid[c].toNat - 1 = d.val
    omega

/-- The printed state. -/
structure Printed (s2 : Solver) (state : Vector CellState 81) : Prop where
  w : W 0 s2
  state : ∀ c : Fin 81, (s2.grid[c] = 0 ∧ state[c] = .candidates s2.cp[c]) ∨
    ∃ d : Digit, s2.grid[c] = d.get ∧ state[c] = .digit d

theorem Printed.fits {s2 : Solver} {state : Vector CellState 81} (h : Printed s2 state) (c : Fin 81) : state[c].Fits := by
  rcases h.state c with ⟨_, e⟩ | ⟨d, _, e⟩ <;> rw [e]
  · exact h.w.fits c
  · trivial

/-- `Display for StrategySolver` -/
theorem display_spec {s : Solver} (h : W 0 s) {fuel : Nat} (hf : 1000 ≤ fuel) :
    ∃ s1 s2 state ok, s.trySolve fuel [.nakedSingles] = .ok s1 ∧
      s1.batchRemoveNoCheck.updateGrid.update fuel false false = .ok (s2, ok) ∧ Printed s2 state ∧
      s.display fuel = .ok (table (entries state)) := by
  have h1 := trySolve_spec (sts := [.nakedSingles]) (by simp) hf h
  cases e1 : s.trySolve fuel [.nakedSingles] with
  | ok s1 =>
    have w1 : W 0 s1 := (nakedRun hf fuel s s1 h e1).1
    have w2 := w1.batchRemoveNoCheck.updateGrid
    have h2 := update_w (k := 0) (by omega) false false (fuel := fuel) (by omega) _ w2
    cases e2 : s1.batchRemoveNoCheck.updateGrid.update fuel false false with
    | ok r =>
      obtain ⟨s2, ok⟩ := r
      rw [e2] at h2
      have w3 : W 0 s2 := h2.1
      obtain ⟨l, e3, hl, hst⟩ := gridState_ok (s := s1.batchRemoveNoCheck) e2 (P := fun c st =>
        (s2.grid[c] = 0 ∧ st = .candidates s2.cp[c]) ∨ ∃ d : Digit, s2.grid[c] = d.get ∧ st = .digit d) (by
          intro c
          rcases stateOf_w w3 c with ⟨h0, e⟩ | ⟨d, h0, e⟩
          · exact ⟨_, e, Or.inl ⟨h0, rfl⟩⟩
          · exact ⟨_, e, Or.inr ⟨d, h0, rfl⟩⟩)
      have hp : Printed s2 ⟨l.toArray, hl⟩ := ⟨w3, fun c => hst c⟩
      refine ⟨s1, s2, ⟨l.toArray, hl⟩, ok, rfl, e2, hp, ?_⟩
      unfold Solver.display Solver.updateForGridStateStr
      rw [e1, Res.ok_bind, Res.ok_bind, e3, Res.ok_bind, dif_pos hl]
      exact printGridState_eq hp.fits
    | err => rw [e2] at h2; exact h2.elim
    | panic => rw [e2] at h2; exact h2.elim
    | timeout => rw [e2] at h2; exact h2.elim
  | err => rw [e1] at h1; exact h1.elim
  | panic => rw [e1] at h1; exact h1.elim
  | timeout => rw [e1] at h1; exact h1.elim

/-! ## The meaning of the printed state -/

theorem Reaches.unlooked {looked : Bool} {s : Solver} {g : Grid} {X : Fin 81 → Digit → Prop} (h : Reaches looked s g X)
    (hl : looked = false) : ∀ c : Fin 81, s.cp[c] = ALL 16 9 := by
  induction h with
  | @sudoku g s hg he =>
    unfold Solver.fromSudoku at he
    obtain ⟨l, _, h2⟩ := bind_ok he
    cases h2
    exact fun c => Vector.getElem_replicate _
  | @gridState state s he =>
    unfold Solver.fromGridState at he
    obtain ⟨⟨a, b⟩, h1, h2⟩ := bind_ok he
    cases h2
    exact fun c => Vector.getElem_replicate _
  | toSudoku h ih => exact ih hl
  | cellState => cases hl
  | @insertOk looked s s' g X e h he ih =>
    unfold Solver.insertCandidate at he
    obtain ⟨⟨s1, ok⟩, h1, h2⟩ := bind_ok he
    rcases push_cases s.updateGrid e (.nakedSingles e) (Or.inl rfl) with ⟨h3, e1⟩ | ⟨h3, e1⟩ | ⟨_, _, e1⟩ <;>
      rw [e1] at h1 <;> cases h1 <;> cases h2 <;> exact ih hl
  | @insertErr looked s s' g X e h he ih =>
    unfold Solver.insertCandidate at he
    obtain ⟨⟨s1, ok⟩, h1, h2⟩ := bind_ok he
    rcases push_cases s.updateGrid e (.nakedSingles e) (Or.inl rfl) with ⟨h3, e1⟩ | ⟨h3, e1⟩ | ⟨_, _, e1⟩ <;>
      rw [e1] at h1 <;> cases h1 <;> cases h2 <;> exact ih hl

/-- What is known of the printed state: `D` are the entries, among them the given digits. -/
structure Meaning (g : Grid) (X : Fin 81 → Digit → Prop) (t : Grid) (D E : List Candidate)
    (state : Vector CellState 81) : Prop where
  sol : Solved t
  ded : ∀ e ∈ D, t[e.cell] = e.digit.get
  elim : ∀ c d, (⟨c, d⟩ : Candidate) ∈ E ↔ X c d
  notX : ∀ c d, X c d → t[c] ≠ d.get
  given : ∀ (c : Fin 81) (d : Digit), g[c] = d.get → (⟨c, d⟩ : Candidate) ∈ D
  range : ∀ c : Fin 81, g[c] ≠ 0 → ∃ d : Digit, g[c] = d.get
  why : ∀ i e, D[i]? = some e → g[e.cell] = e.digit.get ∨ ∃ n ≤ i, Pattern.NakedSingle (CandL (D.take n) E) e
  shown : ∀ c d, d ∈ GridText.shown state[c] ↔ (⟨c, d⟩ : Candidate) ∈ D ∨ CandL D E c d

namespace Meaning

variable {g t : Grid} {X : Fin 81 → Digit → Prop} {ded elim : List Candidate} {state : Vector CellState 81}

theorem ruled_of (h : Meaning g X t ded elim state) {n : Nat} {c : Fin 81} {d : Digit}
    (hr : ∀ i e, i < n → ded[i]? = some e → ∀ d', d' ≠ e.digit → Ruled g X e.cell d')
    (hc : ¬ CandL (ded.take n) elim c d) (hn : ∀ e ∈ ded.take n, e.cell ≠ c) : Ruled g X c d := by
  by_contra hR
  refine hc ⟨fun e he hcd => ?_, fun e he => ⟨hn e he, fun hd => ?_⟩⟩
  · obtain ⟨ec, ed⟩ := e
    obtain ⟨rfl, rfl⟩ := hcd
    exact hR (.excluded ((h.elim _ _).mp he))
  · obtain ⟨i, hi, hie⟩ := List.getElem_of_mem he
    rw [List.length_take] at hi
    rw [List.getElem_take] at hie
    have hi' : ded[i]? = some e := by rw [← hie]; exact List.getElem?_eq_getElem (by omega)
    exact hR (.house (Ne.symm (hn e he)) (Generator.SameHouse.symm' hd.2) (hd.1 ▸ hr i e (by omega) hi'))

theorem entry_ruled (h : Meaning g X t ded elim state) : ∀ (i : Nat) (e : Candidate), ded[i]? = some e →
    ∀ d', d' ≠ e.digit → Ruled g X e.cell d' := by
  intro i
  induction i using Nat.strong_induction_on with
  | _ i ih =>
    intro e hie d' hd
    rcases h.why i e hie with hg | ⟨n, hn, hs⟩
    · exact .given (by rw [hg]; exact Digit.get_ne_zero _) (by rw [hg]; exact fun hh => hd (Digit.get_inj hh).symm)
    · refine h.ruled_of (n := n) (fun j e' hj => ih j (by omega) e') (fun hc => hd ((hs d').mp hc)) ?_
      exact fun e' he' => (((hs e.digit).mpr rfl).2 e' he').1

/-- What is not shown is ruled out. -/
theorem ruled (h : Meaning g X t ded elim state) {c : Fin 81} {d : Digit} (hs : d ∉ GridText.shown state[c]) :
    Ruled g X c d := by
  rw [h.shown] at hs
  push Not at hs
  by_cases he : ∃ e ∈ ded, e.cell = c
  · obtain ⟨e, he, rfl⟩ := he
    obtain ⟨i, hi, hie⟩ := List.getElem_of_mem he
    refine h.entry_ruled i e (by rw [← hie]; exact List.getElem?_eq_getElem hi) d (fun hd => hs.1 ?_)
    subst hd
    exact he
  · push Not at he
    refine h.ruled_of (n := ded.length) (fun i e _ => h.entry_ruled i e) ?_ ?_ <;> rw [List.take_length]
    · exact hs.2
    · exact he

theorem cand_sol (h : Meaning g X t ded elim state) {c : Fin 81} {d : Digit} (hd : t[c] = d.get) (he : ∀ e ∈ ded, e.cell ≠ c) :
    CandL ded elim c d := by
  refine ⟨fun e hee hcd => ?_, fun e hee => ⟨he e hee, fun hx => ?_⟩⟩
  · obtain ⟨ec, ed⟩ := e
    obtain ⟨rfl, rfl⟩ := hcd
    exact h.notX _ _ ((h.elim _ _).mp hee) hd
  · exact h.sol.2 e.cell c (he e hee) hx.2 (by rw [h.ded e hee, hd, hx.1])

/-- The digits of the solution are shown. -/
theorem shows_sol (h : Meaning g X t ded elim state) {c : Fin 81} {d : Digit} (hd : t[c] = d.get) : d ∈ GridText.shown state[c] := by
  rw [h.shown]
  by_cases he : ∃ e ∈ ded, e.cell = c
  · obtain ⟨⟨ec, ed⟩, he, rfl⟩ := he
    have := h.ded _ he
    rw [hd] at this
    rw [Digit.get_inj this]
    exact Or.inl he
  · push Not at he
    exact Or.inr (h.cand_sol hd he)

theorem not_excluded (h : Meaning g X t ded elim state) {c : Fin 81} {d : Digit} (hs : d ∈ GridText.shown state[c]) : ¬ X c d := by
  intro hx
  rcases (h.shown c d).mp hs with hs | hs
  · exact h.notX c d hx (h.ded _ hs)
  · exact hs.1 _ ((h.elim c d).mpr hx) ⟨rfl, rfl⟩

theorem only_given (h : Meaning g X t ded elim state) {c : Fin 81} {d : Digit} (hs : d ∈ GridText.shown state[c]) (h0 : g[c] ≠ 0) :
    g[c] = d.get := by
  obtain ⟨d', hd'⟩ := h.range c h0
  have hm := h.given c d' hd'
  rcases (h.shown c d).mp hs with hs | hs
  · rw [hd', ← h.ded _ hm, ← h.ded _ hs]
  · exact absurd rfl (hs.2 _ hm).1

/-- What is ruled out is not shown, if no single is left. -/
theorem not_shown (h : Meaning g X t ded elim state)
    (hn : ∀ c, (∀ e ∈ ded, e.cell ≠ c) → ∀ d, ¬ ∀ d', CandL ded elim c d' ↔ d' = d) {c : Fin 81} {d : Digit}
    (hr : Ruled g X c d) : d ∉ GridText.shown state[c] := by
  induction hr with
  | excluded hx => exact fun hs => h.not_excluded hs hx
  | given h0 hne => exact fun hs => hne (h.only_given hs h0)
  | @house c c' d hne hsh _ ih =>
    intro hs
    have hlast : ∀ d', d' ∈ GridText.shown state[c'] → d' = d := fun d' hd' => by
      by_contra hdd
      exact ih d' hdd hd'
    by_cases he : ∃ e ∈ ded, e.cell = c'
    · obtain ⟨⟨ec, ed⟩, he, rfl⟩ := he
      have hd := hlast ed ((h.shown _ _).mpr (Or.inl he))
      subst hd
      rcases (h.shown _ _).mp hs with hs | hs
      · exact h.sol.2 _ _ hne hsh (by rw [h.ded _ hs, h.ded _ he])
      · exact (hs.2 _ he).2 ⟨rfl, Generator.SameHouse.symm' hsh⟩
    · push Not at he
      refine hn c' he d (fun d' => ⟨fun hc => hlast d' ((h.shown _ _).mpr (Or.inr hc)), ?_⟩)
      rintro rfl
      have ht := dig_spec h.sol c'
      have := hlast _ (h.shows_sol ht)
      rw [this] at ht
      exact h.cand_sol ht he

end Meaning

theorem meaning {looked : Bool} {s s1 s2 : Solver} {g : Grid} {X : Fin 81 → Digit → Prop} (h : Reaches looked s g X)
    {fuel : Nat} (hf : 1000 ≤ fuel) {state : Vector CellState 81} {ok : Bool} (e1 : s.trySolve fuel [.nakedSingles] = .ok s1)
    (e2 : s1.batchRemoveNoCheck.updateGrid.update fuel false false = .ok (s2, ok)) (hp : Printed s2 state)
    {t : Grid} (ht : SolutionOf g X t) : Meaning g X t s1.deduced s.eliminated state ∧ (looked = false →
      ∀ c, (∀ e ∈ s1.deduced, e.cell ≠ c) → ∀ d, ¬ ∀ d', CandL s1.deduced s.eliminated c d' ↔ d' = d) := by
  obtain ⟨hi, hsem⟩ := h.inv
  obtain ⟨gh, hs⟩ := hsem (Or.inr (Consistent.of_solution ht))
  have ha : Agree t s := hi.agree_of ht
  have hsol : Solved t := ht.1.1
  have hlen : s.eliminated.length < 65536 := by have := nodup_length h.nodup; omega
  obtain ⟨w1, q⟩ := nakedRun hf fuel s s1 hi.w e1
  obtain ⟨g1, r⟩ := q gh t hs hsol ha hlen
  have ha1 : Agree t s1 := r.trace.pres t hsol ha
  obtain ⟨f1, f2, f3, f4⟩ := batchRemoveNoCheck_frame s1
  have ha2 : Agree t s1.batchRemoveNoCheck := ⟨by rw [f1]; exact ha1.ded, by rw [f2]; exact ha1.elim, by
    intro c hc
    rw [f3] at hc ⊢
    exact ha1.grid c hc⟩
  have hs3 := r.sem.batchRemoveNoCheck.enter
  have ha3 := ha2.enter
  have h2 := update_w (k := 0) (by omega) false false (fuel := fuel) (by omega) _ w1.batchRemoveNoCheck.updateGrid
  rw [e2] at h2
  obtain ⟨w2, w2', w3, -⟩ := h2
  have w3 : ok = true → Updated false 0 s1.batchRemoveNoCheck.updateGrid s2 := w3
  obtain ⟨g2, p, q1, q2⟩ := update_g fuel false false hs3.gh hs3.closed hs3.fresh _ e2
  have hok : ok = true := by
    cases ok with
    | true => rfl
    | false => exact absurd (Cons.of_solved hsol ha3) (q2 rfl (by simp) t (by simp))
  subst hok
  have hu := w3 rfl
  obtain ⟨q3, q4⟩ := q1 rfl
  have hset : Settled s2 g2 := ⟨⟨w2, hu.all, hu.removed⟩, p.gh, q3, q4, p.trace.gsrc hs3.gsrc, Pend.of_all hu.cpE⟩
  obtain ⟨t1, t2⟩ := p.trace.still rfl
  have hded : s2.deduced = s1.deduced := t1.trans f1
  have hel1 : s1.eliminated = s.eliminated := r.trace.elim
  have helim : s2.eliminated = s.eliminated := p.trace.elim.trans (f2.trans hel1)
  have hag : Agree t s2 := p.trace.pres t hsol ha3
  have hcands : Cands s2.cp = CandL s1.deduced s.eliminated := by
    rw [hset.cands hsol hag, hded, helim]
  obtain ⟨ext, x1, _, x3⟩ := r.trace.log
  have hgrid : s2.grid = enterAll s1.grid s1.deduced := by
    rw [t2]
    show enterAll s1.batchRemoveNoCheck.grid s1.batchRemoveNoCheck.deduced = _
    rw [f1, f3]
  refine ⟨⟨hsol, ha1.ded, hi.elim, ht.2, ?_, hi.wf, ?_, ?_⟩, ?_⟩
  · intro c d hcd
    rw [x1]
    exact List.mem_append_left _ ((hi.ded c d).mpr hcd)
  · intro i e hie
    rw [x1] at hie
    by_cases hlt : i < s.deduced.length
    · rw [List.getElem?_append_left hlt] at hie
      exact Or.inl (hi.ded' (List.mem_of_getElem? hie))
    · rw [List.getElem?_append_right (by omega)] at hie
      obtain ⟨n, hn, hs⟩ := x3 _ e hie ⟨t, hsol, ha⟩
      exact Or.inr ⟨n, by omega, hs⟩
  · intro c d
    rcases enterAll_cases c s1.deduced s1.grid with ⟨h1, h2⟩ | ⟨d', h1, h2⟩
    · have h0 : s2.grid[c] = 0 := by
        rw [hgrid, h1]
        rcases r.sem.gsrc c with h0 | ⟨d', _, h0⟩
        · exact h0
        · exact absurd rfl (h2 _ h0)
      rcases hp.state c with ⟨_, e⟩ | ⟨d', h3, _⟩
      · rw [e, shown_candidates, mem_mems]
        have : Cands s2.cp c d ↔ CandL s1.deduced s.eliminated c d := by rw [hcands]
        refine ⟨fun hb => Or.inr (this.mp hb), fun hb => this.mpr ?_⟩
        rcases hb with hb | hb
        · exact absurd rfl (h2 _ hb)
        · exact hb
      · rw [h3] at h0
        exact absurd h0 (Digit.get_ne_zero _)
    · rcases hp.state c with ⟨h3, _⟩ | ⟨d2, h3, e⟩
      · rw [hgrid, h1] at h3
        exact absurd h3 (Digit.get_ne_zero _)
      · rw [hgrid, h1] at h3
        have := Digit.get_inj h3
        subst this
        rw [e]
        show d ∈ [d'] ↔ _
        rw [List.mem_singleton]
        constructor
        · rintro rfl
          exact Or.inl h2
        · rintro (hb | hb)
          · have a1 := ha1.ded _ h2
            have a2 := ha1.ded _ hb
            exact Digit.get_inj (a2.symm.trans a1)
          · exact absurd rfl (hb.2 _ h2).1
  · rintro rfl c hc d hsing
    rcases r.done with hn | ⟨hb, hsg⟩
    · have hfull : clueCount g1 = 81 := by rw [← r.sem.gh.count]; exact hn
      have h0 : g1[c] ≠ 0 := Generator.clueCount_full hfull c
      obtain ⟨d', hd'⟩ := r.sem.gh.range c h0
      exact absurd rfl (hc _ (List.mem_of_mem_take (r.sem.gh.src c d' hd')))
    · have hset1 : Settled s1 g1 := ⟨hb, r.sem⟩
      have hS : Singles s1 := hsg ⟨hi.w.fits, fun c d hcd => by
        rw [h.unlooked rfl c] at hcd
        exfalso
        have h0 := (hcd 0).mp (by decide)
        have h1 := (hcd 1).mp (by decide)
        omega⟩
      have hc1 := hset1.cands hsol ha1
      rw [hel1] at hc1
      have hbit : ∀ d' : Digit, s1.cp[c].getLsbD d'.val = true ↔ d' = d := fun d' => by
        rw [← hsing d', ← hc1]; rfl
      have hne : s1.cp[c] ≠ 0#16 := by
        intro h0
        have := (hbit d).mpr rfl
        rw [h0] at this
        simp at this
      refine hS.filled c d (fun i => ?_) (hset1.grid_zero hne)
      constructor
      · intro hb
        have hi9 : i < 9 := by
          by_contra hi9
          exact hi9 (w1.fits c i hb)
        exact congrArg Fin.val ((hbit ⟨i, hi9⟩).mp hb)
      · rintro rfl
        exact (hbit d).mpr rfl

/-- The printed text and its meaning. -/
theorem display_meaning {looked : Bool} {s : Solver} {g : Grid} {X : Fin 81 → Digit → Prop} (h : Reaches looked s g X)
    {fuel : Nat} (hf : 1000 ≤ fuel) : ∃ state : Vector CellState 81, (∀ c : Fin 81, state[c].Fits) ∧
      s.display fuel = .ok (table (entries state)) ∧ ∃ ded elim, ∀ t, SolutionOf g X t → Meaning g X t ded elim state ∧
        (looked = false → ∀ c, (∀ e ∈ ded, e.cell ≠ c) → ∀ d, ¬ ∀ d', CandL ded elim c d' ↔ d' = d) := by
  obtain ⟨s1, s2, state, ok, e1, e2, hp, hd⟩ := display_spec h.inv.1.w hf
  exact ⟨state, hp.fits, hd, _, _, fun t ht => meaning h hf e1 e2 hp ht⟩

/-! ## Reading the text -/

theorem shown_eq (st : CellState) : shown st = (List.finRange 9).filter (fun d => d ∈ shown st) := by
  cases st with
  | digit d =>
    have : ∀ d : Digit, [d] = (List.finRange 9).filter (fun x => x ∈ [d]) := by decide
    exact this d
  | candidates cands =>
    show List.filter _ _ = List.filter _ _
    refine List.filter_congr (fun d hd => ?_)
    simp [shown]

theorem shown_ext {a b : CellState} (h : ∀ d, d ∈ shown a ↔ d ∈ shown b) : shown a = shown b := by
  rw [shown_eq a, shown_eq b]
  refine List.filter_congr (fun d _ => ?_)
  simp [h d]

theorem digitChar_inj : ∀ a b : Digit, digitChar a = digitChar b → a = b := by decide

theorem digitChar_ne : ∀ a : Digit, digitChar a ≠ '_' := by decide

theorem entry_inj {a b : List Digit} (h : entry a = entry b) : a = b := by
  unfold entry at h
  split at h <;> split at h
  · rename_i h1 h2; rw [h1, h2]
  · rename_i h1 h2
    have : '_' ∈ b.map digitChar := by rw [← h]; simp
    obtain ⟨x, _, hx⟩ := List.mem_map.mp this
    exact absurd hx (digitChar_ne x)
  · rename_i h1 h2
    have : '_' ∈ a.map digitChar := by rw [h]; simp
    obtain ⟨x, _, hx⟩ := List.mem_map.mp this
    exact absurd hx (digitChar_ne x)
  · exact List.map_injective_iff.mpr (fun a b => digitChar_inj a b) h

theorem shown_read (st : CellState) : shown st.read = shown st := by
  unfold CellState.read
  split
  · rename_i d h
    rw [h]; rfl
  · rfl

theorem mem_shown_iff (state : Vector CellState 81) (c : Fin 81) (d : Digit) : d ∈ shown state[c] ↔
    ¬ excludedBy state c d ∧ ((digitsOf state)[c] ≠ 0 → (digitsOf state)[c] = d.get) := by
  have e : (digitsOf state)[c] = match state[c] with
      | .digit d => d.get
      | .candidates _ => 0 := by
    show (Vector.map _ state)[c.val] = _
    rw [Vector.getElem_map]
    rfl
  unfold excludedBy
  rw [e]
  cases state[c] with
  | digit d' =>
    show d ∈ [d'] ↔ _
    rw [List.mem_singleton]
    constructor
    · rintro rfl; exact ⟨id, fun _ => rfl⟩
    · rintro ⟨_, h⟩; exact (Digit.get_inj (h (Digit.get_ne_zero _))).symm
  | candidates cands =>
    simp [shown]

theorem getElem_read (state : Vector CellState 81) (c : Fin 81) : (state.map CellState.read)[c] = state[c].read := by
  show (Vector.map _ state)[c.val] = _
  rw [Vector.getElem_map]
  rfl

end Verif.Strat
