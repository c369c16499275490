import Verif.Proofs.StratGhost

/-!
# The strategy solver: what a run has to keep

`St s g`: the state between two strategies.  `Log`: the deductions explain the entries and the eliminated candidates.
`Run`: a part of a run keeps the solutions and the log.  `Meas`: it makes progress.
-/
namespace Verif.Strat

open Bitset Generator

/-- The entry of a single. -/
def Deduction.single {T : Type} : Deduction T → Option Candidate
  | .nakedSingles e => some e
  | .hiddenSingles e _ => some e
  | _ => none

theorem slice_ok {elim : List Candidate} {rg : Nat × Nat} {l : List Candidate} (h : slice elim rg = .ok l) :
    l = (elim.take rg.2).drop rg.1 := by
  unfold slice at h
  split at h
  · exact (Res.ok.inj h).symm
  · cases h

theorem withSlices_parts {d : RangeDeduction} {elim : List Candidate} {d' : Deduction (List Candidate)}
    (h : withSlices d elim = .ok d') : Pattern.entry d' = d.single ∧
      ∀ e, e ∈ Pattern.removed d' ↔ ∃ rg, d.conf = some rg ∧ e ∈ (elim.take rg.2).drop rg.1 := by
  have key : ∀ (rg : Nat × Nat) (f : List Candidate → Deduction (List Candidate)),
      (slice elim rg >>= fun l => Res.ok (f l)) = .ok d' → d' = f ((elim.take rg.2).drop rg.1) := by
    intro rg f hf
    cases hs : slice elim rg with
    | ok l => rw [hs, Res.ok_bind] at hf; rw [← slice_ok hs]; exact (Res.ok.inj hf).symm
    | err => rw [hs] at hf; cases hf
    | panic => rw [hs] at hf; cases hf
    | timeout => rw [hs] at hf; cases hf
  cases d with
  | nakedSingles c => cases h; exact ⟨rfl, fun e => by simp [Pattern.removed, Deduction.conf]⟩
  | hiddenSingles c x => cases h; exact ⟨rfl, fun e => by simp [Pattern.removed, Deduction.conf]⟩
  | avoidableRectangle l c => cases h
  | lockedCandidates a b c rg =>
    rw [key rg (fun l => .lockedCandidates a b c l) h]
    exact ⟨rfl, fun e => by simp [Pattern.removed, Deduction.conf]⟩
  | subsets a b c rg =>
    rw [key rg (fun l => .subsets a b c l) h]
    exact ⟨rfl, fun e => by simp [Pattern.removed, Deduction.conf]⟩
  | basicFish a b c rg =>
    rw [key rg (fun l => .basicFish a b c l) h]
    exact ⟨rfl, fun e => by simp [Pattern.removed, Deduction.conf]⟩
  | fish a b c rg =>
    rw [key rg (fun l => .fish a b c l) h]
    exact ⟨rfl, fun e => by simp [Pattern.removed, Deduction.conf]⟩
  | wing a b c rg =>
    rw [key rg (fun l => .wing a b c l) h]
    exact ⟨rfl, fun e => by simp [Pattern.removed, Deduction.conf]⟩

/-- `E` and `X` are entries and eliminated candidates from the first `i` deductions, or given at the start. -/
structure Known (clues elim0 : List Candidate) (s : Solver) (i : Nat) (E X : List Candidate) : Prop where
  ded : ∀ e ∈ E, e ∈ clues ∨ ∃ j d, j < i ∧ s.deductions[j]? = some d ∧ d.single = some e
  elim : ∀ e ∈ X, e ∈ elim0 ∨ ∃ j d rg, j < i ∧ s.deductions[j]? = some d ∧ d.conf = some rg ∧
    e ∈ (s.eliminated.take rg.2).drop rg.1

/-- The deduction with number `i` shows a pattern of one of the strategies. -/
def Good (clues elim0 : List Candidate) (sts : List Strategy) (solv : Prop) (s : Solver) (i : Nat)
    (d : Deduction (List Candidate)) : Prop :=
  ∃ st ∈ sts, d.strategy = .ok st ∧
    (solv → ∃ E X, Known clues elim0 s i E X ∧ Pattern.Matches (CandL E X) st d)

/-- The deductions explain everything. -/
structure Log (clues elim0 : List Candidate) (sts : List Strategy) (solv : Prop) (s : Solver) : Prop where
  expl : ∀ i d, s.deductions[i]? = some d → Expl (Good clues elim0 sts solv s i) s.eliminated d
  ded : ∀ e ∈ s.deduced, e ∈ clues ∨ ∃ d ∈ s.deductions, d.single = some e
  elim : ∀ e ∈ s.eliminated, e ∈ elim0 ∨ ∃ d ∈ s.deductions, ∃ rg, d.conf = some rg ∧
    e ∈ (s.eliminated.take rg.2).drop rg.1
  sing : ∀ d ∈ s.deductions, ∀ e, d.single = some e → e ∈ s.deduced

theorem mem_range_append {l m : List Candidate} {a b : Nat} {e : Candidate} (h : e ∈ (l.take b).drop a) :
    e ∈ ((l ++ m).take b).drop a := by
  rw [List.take_append, List.drop_append]
  exact List.mem_append_left _ h

theorem Known.append {clues elim0 : List Candidate} {s s' : Solver} {i : Nat} {E X : List Candidate}
    (h : Known clues elim0 s i E X) {ds : List RangeDeduction} {news : List Candidate}
    (hd : s'.deductions = s.deductions ++ ds) (hn : s'.eliminated = s.eliminated ++ news) :
    Known clues elim0 s' i E X := by
  have hget : ∀ (j : Nat) d, s.deductions[j]? = some d → s'.deductions[j]? = some d := by
    intro j d hj
    rw [hd, List.getElem?_append_left]
    · exact hj
    · exact (List.getElem?_eq_some_iff.mp hj).1
  refine ⟨?_, ?_⟩
  · intro e he
    rcases h.ded e he with h1 | ⟨j, d, h1, h2, h3⟩
    · exact Or.inl h1
    · exact Or.inr ⟨j, d, h1, hget j d h2, h3⟩
  · intro e he
    rcases h.elim e he with h1 | ⟨j, d, rg, h1, h2, h3, h4⟩
    · exact Or.inl h1
    · exact Or.inr ⟨j, d, rg, h1, hget j d h2, h3, by rw [hn]; exact mem_range_append h4⟩

theorem exists_index {α : Type} {l : List α} {x : α} (h : x ∈ l) : ∃ j, j < l.length ∧ l[j]? = some x := by
  obtain ⟨j, hj⟩ := List.mem_iff_getElem?.mp h
  exact ⟨j, (List.getElem?_eq_some_iff.mp hj).1, hj⟩

/-- Adding explained deductions. -/
theorem Log.extend {clues elim0 : List Candidate} {sts : List Strategy} {solv : Prop} {s s' : Solver}
    (h : Log clues elim0 sts solv s) {ds : List RangeDeduction} {ext news : List Candidate}
    (hd : s'.deductions = s.deductions ++ ds) (he : s'.deduced = s.deduced ++ ext)
    (hn : s'.eliminated = s.eliminated ++ news)
    (h1 : ∀ (i : Nat) d, ds[i]? = some d → Expl (fun d' => ∃ st ∈ sts, d'.strategy = .ok st ∧ (solv → ∃ E X,
      (∀ e ∈ E, e ∈ s.deduced ∨ ∃ (j : Nat) (d : RangeDeduction), j < i ∧ ds[j]? = some d ∧ d.single = some e) ∧
      (∀ e ∈ X, e ∈ s.eliminated) ∧ Pattern.Matches (CandL E X) st d')) s'.eliminated d)
    (h2 : ∀ e ∈ ext, ∃ d ∈ ds, d.single = some e)
    (h3 : ∀ e ∈ news, ∃ d ∈ ds, ∃ rg, d.conf = some rg ∧ e ∈ (s'.eliminated.take rg.2).drop rg.1)
    (h4 : ∀ d ∈ ds, ∀ e, d.single = some e → e ∈ ext) :
    Log clues elim0 sts solv s' := by
  have hget : ∀ (j : Nat) d, s.deductions[j]? = some d → s'.deductions[j]? = some d := by
    intro j d hj
    rw [hd, List.getElem?_append_left]
    · exact hj
    · exact (List.getElem?_eq_some_iff.mp hj).1
  refine ⟨?_, ?_, ?_, ?_⟩
  · intro i d hi
    by_cases hlt : i < s.deductions.length
    · rw [hd, List.getElem?_append_left hlt] at hi
      rw [hn]
      refine ((h.expl i d hi).append news).mono ?_
      rintro d' ⟨st, g1, g2, g3⟩
      refine ⟨st, g1, g2, fun hs => ?_⟩
      obtain ⟨E, X, g4, g5⟩ := g3 hs
      exact ⟨E, X, g4.append hd hn, g5⟩
    · rw [hd, List.getElem?_append_right (by omega)] at hi
      refine (h1 _ d hi).mono ?_
      rintro d' ⟨st, g1, g2, g3⟩
      refine ⟨st, g1, g2, fun hs => ?_⟩
      obtain ⟨E, X, g4, g5, g6⟩ := g3 hs
      refine ⟨E, X, ⟨?_, ?_⟩, g6⟩
      · intro e hE
        rcases g4 e hE with hE | ⟨j, d2, a1, a2, a3⟩
        · rcases h.ded e hE with hE | ⟨d2, a1, a2⟩
          · exact Or.inl hE
          · obtain ⟨j, b1, b2⟩ := exists_index a1
            exact Or.inr ⟨j, d2, by omega, hget j d2 b2, a2⟩
        · refine Or.inr ⟨s.deductions.length + j, d2, by omega, ?_, a3⟩
          rw [hd, List.getElem?_append_right (by omega), Nat.add_sub_cancel_left]
          exact a2
      · intro e hX
        rcases h.elim e (g5 e hX) with hX | ⟨d2, a1, rg, a2, a3⟩
        · exact Or.inl hX
        · obtain ⟨j, b1, b2⟩ := exists_index a1
          exact Or.inr ⟨j, d2, rg, by omega, hget j d2 b2, a2, by rw [hn]; exact mem_range_append a3⟩
  · intro e h4
    rw [he] at h4
    rw [hd]
    rcases List.mem_append.mp h4 with h4 | h4
    · rcases h.ded e h4 with h5 | ⟨d, h5, h6⟩
      · exact Or.inl h5
      · exact Or.inr ⟨d, List.mem_append_left _ h5, h6⟩
    · obtain ⟨d, h5, h6⟩ := h2 e h4
      exact Or.inr ⟨d, List.mem_append_right _ h5, h6⟩
  · intro e h4
    rw [hn] at h4
    rw [hd]
    rcases List.mem_append.mp h4 with h4 | h4
    · rcases h.elim e h4 with h5 | ⟨d, h5, rg, h6, h7⟩
      · exact Or.inl h5
      · exact Or.inr ⟨d, List.mem_append_left _ h5, rg, h6, by rw [hn]; exact mem_range_append h7⟩
    · obtain ⟨d, h5, rg, h6, h7⟩ := h3 e h4
      exact Or.inr ⟨d, List.mem_append_right _ h5, rg, h6, h7⟩
  · intro d h5 e h6
    rw [hd] at h5
    rw [he]
    rcases List.mem_append.mp h5 with h5 | h5
    · exact List.mem_append_left _ (h.sing d h5 e h6)
    · exact List.mem_append_right _ (h4 d h5 e h6)

/-- A part of a run. -/
structure Run (sts : List Strategy) (s s' : Solver) : Prop where
  pres : ∀ t, Solved t → Agree t s → Agree t s'
  ded : ∃ ext, s'.deduced = s.deduced ++ ext
  elim : ∃ news, s'.eliminated = s.eliminated ++ news
  gsrc : GridSrc s → GridSrc s'
  log : ∀ clues elim0 solv, (solv → ∃ t, Solved t ∧ Agree t s) → Log clues elim0 sts solv s →
    Log clues elim0 sts solv s'

theorem Run.refl {sts : List Strategy} (s : Solver) : Run sts s s :=
  ⟨fun _ _ h => h, ⟨[], by simp⟩, ⟨[], by simp⟩, id, fun _ _ _ _ h => h⟩

theorem Run.trans {sts : List Strategy} {a b c : Solver} (h : Run sts a b) (h' : Run sts b c) : Run sts a c := by
  obtain ⟨x, hx⟩ := h.ded
  obtain ⟨y, hy⟩ := h'.ded
  obtain ⟨u, hu⟩ := h.elim
  obtain ⟨v, hv⟩ := h'.elim
  refine ⟨fun t ht ha => h'.pres t ht (h.pres t ht ha), ⟨x ++ y, by rw [hy, hx, List.append_assoc]⟩,
    ⟨u ++ v, by rw [hv, hu, List.append_assoc]⟩, h'.gsrc ∘ h.gsrc, ?_⟩
  intro clues elim0 solv hs hl
  refine h'.log clues elim0 solv (fun hv => ?_) (h.log clues elim0 solv hs hl)
  obtain ⟨t, ht, ha⟩ := hs hv
  exact ⟨t, ht, h.pres t ht ha⟩

/-- A change of the caches only. -/
theorem Run.of_eq {sts : List Strategy} {s s' : Solver} (h1 : s'.deduced = s.deduced) (h2 : s'.deductions = s.deductions)
    (h3 : s'.eliminated = s.eliminated) (h4 : s'.grid = s.grid) : Run sts s s' := by
  refine ⟨fun t _ ha => ⟨?_, ?_, ?_⟩, ⟨[], by simp [h1]⟩, ⟨[], by simp [h3]⟩, fun h => by
    unfold GridSrc; rw [h1, h4]; exact h, ?_⟩
  · rw [h1]; exact ha.ded
  · rw [h3]; exact ha.elim
  · rw [h4]; exact ha.grid
  · intro clues elim0 solv _ hl
    refine hl.extend (ds := []) (ext := []) (news := []) (by simp [h2]) (by simp [h1]) (by simp [h3]) ?_ ?_ ?_ ?_
    · intro i d h; simp at h
    · intro e h; simp at h
    · intro e h; simp at h
    · intro e h; simp at h

theorem expl_single {Q : Deduction (List Candidate) → Prop} {elim : List Candidate} (e : Candidate)
    (h : Q (.nakedSingles e)) : Expl Q elim (.nakedSingles e) := fun _ => ⟨_, rfl, h⟩

theorem expl_hidden {Q : Deduction (List Candidate) → Prop} {elim : List Candidate} (e : Candidate) (x : Pos.HouseType)
    (h : Q (.hiddenSingles e x)) : Expl Q elim (.hiddenSingles e x) := fun _ => ⟨_, rfl, h⟩

/-- Updating the caches. -/
theorem Trace.run {sts : List Strategy} {fn : Bool} {s s' : Solver} (h : Trace fn s s') (hf : Fr fn s s')
    (hn : fn = true → Strategy.nakedSingles ∈ sts) : Run sts s s' := by
  obtain ⟨ext, x1, x2, x3⟩ := h.log
  refine ⟨h.pres, ⟨ext, x1⟩, ⟨[], by simp [h.elim]⟩, h.gsrc, ?_⟩
  intro clues elim0 solv hs hl
  have hmem : ext = [] ∨ Strategy.nakedSingles ∈ sts := by
    cases fn
    · obtain ⟨ext', y1, _, y3⟩ := hf.ded
      left
      rw [x1] at y1
      rw [List.append_cancel_left y1]
      exact y3 rfl
    · exact Or.inr (hn rfl)
  refine hl.extend (ds := ext.map .nakedSingles) (news := []) x2 x1 (by simp [h.elim]) ?_ ?_ ?_ ?_
  · intro i d hi
    rw [List.getElem?_map] at hi
    obtain ⟨e, he, rfl⟩ := Option.map_eq_some_iff.mp hi
    refine expl_single e ⟨.nakedSingles, ?_, rfl, fun hv => ?_⟩
    · rcases hmem with rfl | hm
      · simp at he
      · exact hm
    · obtain ⟨n, hn1, hn2⟩ := x3 i e he (hs hv)
      refine ⟨_, _, ?_, fun e he => he, hn2⟩
      intro e' he'
      obtain ⟨j, hj, hje⟩ := mem_take.mp he'
      rw [x1] at hje
      by_cases hlt : j < s.deduced.length
      · rw [List.getElem?_append_left hlt] at hje
        exact Or.inl (List.mem_of_getElem? hje)
      · rw [List.getElem?_append_right (by omega)] at hje
        refine Or.inr ⟨j - s.deduced.length, .nakedSingles e', by omega, ?_, rfl⟩
        rw [List.getElem?_map, hje]
        rfl
  · intro e he
    exact ⟨.nakedSingles e, List.mem_map.mpr ⟨e, he, rfl⟩, rfl⟩
  · intro e h; simp at h
  · intro d hd e he
    obtain ⟨e', he', rfl⟩ := List.mem_map.mp hd
    cases he
    exact he'

/-! ## States between two strategies -/

/-- The cells of the eliminated candidates that are not yet removed are empty (as long as the counter is right). -/
def Pend (s : Solver) (g : Grid) : Prop :=
  s.eliminated.length < 65536 → ∀ e ∈ s.eliminated.drop s.cpElim, g[e.cell] = 0

theorem Pend.of_all {s : Solver} {g : Grid} (h : s.cpElim = s.eliminated.length % 65536) : Pend s g := by
  intro hl e he
  rw [h, Nat.mod_eq_of_lt hl, List.drop_length] at he
  cases he

/-- What the state between two strategies means, if no contradiction was met. -/
structure Sem (s : Solver) (g : Grid) : Prop where
  gh : Gh s g
  closed : Closed s
  fresh : Fresh s g
  gsrc : GridSrc s
  pend : Pend s g

/-- The state after a successful update of the caches. -/
structure Base (s : Solver) : Prop where
  w : W 0 s
  all : s.cpNext = s.deduced.length
  removed : Removed s

/-- Both. -/
structure Settled (s : Solver) (g : Grid) : Prop extends Base s, Sem s g

theorem Settled.closed' {s : Solver} {g : Grid} (h : Settled s g) {e : Candidate} (he : e ∈ s.deduced) :
    s.cp[e.cell] = 0#16 := by
  refine h.closed e ?_
  rw [h.all, List.take_length]
  exact he

/-- The cells without possible digits are filled. -/
theorem Gh.filledC {s : Solver} {g : Grid} (h : Gh s g) {t : Grid} (ha : Cons t s) {c : Fin 81}
    (h0 : s.cp[c] = 0#16) : g[c] ≠ 0 := by
  intro hc
  obtain ⟨d, hd⟩ := ha.range c
  have := h.satC ha hc hd
  rw [h0] at this
  simp at this

theorem Gh.filled {s : Solver} {g : Grid} (h : Gh s g) {t : Grid} (ht : Solved t) (ha : Agree t s) {c : Fin 81}
    (h0 : s.cp[c] = 0#16) : g[c] ≠ 0 := h.filledC (Cons.of_solved ht ha) h0

theorem Settled.cpOK {s : Solver} {g : Grid} (h : Settled s g) {t : Grid} (ht : Solved t) (ha : Agree t s) :
    CpOK s.cp t := by
  refine ⟨ht, ?_, ?_⟩
  · intro c d hc
    by_cases h0 : g[c] = 0
    · exact Or.inr (h.gh.sat ht ha h0 hc)
    · exact Or.inl (h.gh.empty c h0)
  · intro c c' d hne hs h0 hc
    have hf := h.gh.filled ht ha h0
    have := h.gh.sub_sol ha hf
    exact h.fresh c c' d hne hs (by rw [← this, hc])

theorem Settled.hpOK {s : Solver} {g : Grid} (h : Settled s g) {t : Grid} (ht : Solved t) (ha : Agree t s) :
    HpOK s.hp t := by
  intro x d p hc
  obtain ⟨n, _, _, hn⟩ := h.w.hpEx
  by_cases hex : ∃ e ∈ s.deduced.take s.hpNext, e.digit = d ∧ SameHouse e.cell (Pos.houseCellAt x p)
  · obtain ⟨e, he, rfl, hs⟩ := hex
    have hte := ha.ded e (List.mem_of_mem_take he)
    have hcell : e.cell = Pos.houseCellAt x p := by
      by_contra hne
      exact ht.2 _ _ hne hs (by rw [hte, hc])
    left
    rw [eq_zero_iff]
    intro i
    by_contra hb
    rw [Bool.not_eq_false] at hb
    have hi := h.w.fitsP x e.digit i hb
    have := ((hn x e.digit ⟨i, hi⟩).mp hb).2 e he
    apply this.2
    rw [hcell]
    exact ⟨rfl, sameHouse_of_hca _ _ _⟩
  · right
    rw [hn]
    refine ⟨?_, ?_⟩
    · rintro e he ⟨h1, h2⟩
      have := ha.elim e (List.mem_of_mem_take he)
      rw [← h2, ← (congrArg (fun c : Fin 81 => t[c]) h1 : t[e.cell] = _)] at hc
      exact this hc
    · intro e he
      have h2 : ¬ (e.digit = d ∧ SameHouse e.cell (Pos.houseCellAt x p)) := fun hh => hex ⟨e, he, hh⟩
      refine ⟨?_, h2⟩
      intro hcell
      apply h2
      have hte := ha.ded e (List.mem_of_mem_take he)
      refine ⟨?_, ?_⟩
      · have : t[e.cell] = t[Pos.houseCellAt x p] := congrArg (fun c : Fin 81 => t[c]) hcell
        exact Digit.get_inj (hte.symm.trans (this.trans hc))
      · rw [hcell]
        exact sameHouse_of_hca _ _ _

/-- In a consistent state the possible digits are the candidates. -/
theorem Settled.candsC {s : Solver} {g : Grid} (h : Settled s g) {t : Grid} (ha : Cons t s) :
    Cands s.cp = CandL s.deduced s.eliminated := by
  funext c d
  refine propext ⟨?_, ?_⟩
  · intro hb
    have hb : s.cp[c].getLsbD d.val = true := hb
    have hne : s.cp[c] ≠ 0#16 := ne_zero_iff.mpr ⟨_, hb⟩
    refine ⟨?_, ?_⟩
    · rintro ⟨c', d'⟩ he ⟨h1, h2⟩
      dsimp only at h1 h2
      subst h1 h2
      have := h.removed _ he
      rw [hb] at this
      cases this
    · rintro ⟨c', d'⟩ he
      have hcc : c' ≠ c := by
        rintro rfl
        exact hne (h.closed' he)
      refine ⟨hcc, ?_⟩
      rintro ⟨h1, h2⟩
      dsimp only at h1 h2
      subst h1
      have hf := h.gh.filledC ha (h.closed' he)
      have hg := h.gh.sub_sol ha.agree hf
      have := h.fresh c' c d' hcc h2 (by rw [← hg]; exact ha.agree.ded _ he)
      rw [hb] at this
      cases this
  · rintro ⟨h1, h2⟩
    have h0 : g[c] = 0 := by
      by_contra hc
      obtain ⟨d', hd'⟩ := h.gh.range c hc
      exact (h2 _ (List.mem_of_mem_take (h.gh.src c d' hd'))).1 rfl
    refine h.gh.lower c d h0 ?_ (fun he => h1 _ he ⟨rfl, rfl⟩)
    intro c' hne hs hg
    exact (h2 _ (List.mem_of_mem_take (h.gh.src c' d hg))).2 ⟨rfl, SameHouse.symm' hs⟩

theorem Settled.cands {s : Solver} {g : Grid} (h : Settled s g) {t : Grid} (ht : Solved t) (ha : Agree t s) :
    Cands s.cp = CandL s.deduced s.eliminated := h.candsC (Cons.of_solved ht ha)

theorem Settled.hpCp {s : Solver} {g : Grid} (h : Settled s g) (hc : HpCurrent s) {t : Grid} (ht : Solved t)
    (ha : Agree t s) : HpCp s.cp s.hp := by
  intro x d p
  rw [hc, ← h.cands ht ha]
  exact Iff.rfl

/-- A search that only adds eliminated candidates. -/
theorem Settled.run {sts : List Strategy} {st : Strategy} {s s' : Solver} {g : Grid} (h : Settled s g) (hst : st ∈ sts)
    (hc : usesHp st = true → HpCurrent s) (he : Ext (NewElim s) (DedOf st s.cp s.hp) s s') : Run sts s s' := by
  obtain ⟨news, ds, rfl, hx⟩ := he
  refine ⟨?_, ⟨[], by simp [Solver.addElim]⟩, ⟨news, rfl⟩, id, ?_⟩
  · intro t ht ha
    refine ⟨ha.ded, ?_, ha.grid⟩
    intro e he
    rcases List.mem_append.mp he with he | he
    · exact ha.elim e he
    · exact (hx.new e he).2.1 t (h.cpOK ht ha) (h.hpOK ht ha)
  · intro clues elim0 solv hs hl
    refine hl.extend (ds := ds) (ext := []) (news := news) rfl (by simp [Solver.addElim]) rfl ?_ ?_ ?_ ?_
    · intro i d hi
      refine (hx.expl d (List.mem_of_getElem? hi)).mono ?_
      rintro d' ⟨h1, -, h2⟩
      refine ⟨st, hst, h1, fun hv => ?_⟩
      obtain ⟨t, ht, ha⟩ := hs hv
      refine ⟨s.deduced, s.eliminated, fun e he => Or.inl he, fun e he => he, ?_⟩
      rw [← h.cands ht ha]
      exact h2 (fun hu => h.hpCp (hc hu) ht ha)
    · intro e he; simp at he
    · intro e he
      obtain ⟨i, hi, hie⟩ := exists_index he
      obtain ⟨d, hd, rg, h1, h2, h3⟩ := hx.cover (s.eliminated.length + i) (by omega)
        (by rw [List.length_append]; omega)
      refine ⟨d, hd, rg, h1, ?_⟩
      show e ∈ ((s.eliminated ++ news).take rg.2).drop rg.1
      refine List.mem_iff_getElem?.mpr ⟨s.eliminated.length + i - rg.1, ?_⟩
      rw [List.getElem?_drop, Nat.add_sub_cancel' h2, List.getElem?_take, if_pos h3,
        List.getElem?_append_right (by omega), Nat.add_sub_cancel_left]
      exact hie
    · intro d hd e he
      obtain ⟨d', h1, -, h2, -⟩ := hx.expl d hd []
      rw [(withSlices_parts h1).1, he] at h2
      cases h2

theorem W.addElim {s : Solver} (h : W 0 s) (news : List Candidate) (ds : List RangeDeduction) :
    W 0 (s.addElim news ds) := by
  have hle : s.eliminated.length ≤ (s.eliminated ++ news).length := by rw [List.length_append]; omega
  obtain ⟨n, n1, n2, n3⟩ := h.done
  obtain ⟨m, m1, m2, m3⟩ := h.hpEx
  refine ⟨h.fits, h.fitsH, h.fitsP, h.count, h.next, h.nextLe, h.elimLe.trans hle, h.hpElimLe.trans hle, h.hpNextLe,
    h.budget, h.range, h.last, ⟨n, n1, n2.trans hle, ?_⟩, ⟨m, m1, m2.trans hle, ?_⟩⟩
  · show ∀ e ∈ (s.eliminated ++ news).take n, _
    rw [List.take_append_of_le_length n2]
    exact n3
  · show ∀ (h : Fin 27) (d : Digit) (p : Fin 9), _ ↔ CandL _ ((s.eliminated ++ news).take m) _ _
    rw [List.take_append_of_le_length m2]
    exact m3

theorem Gh.addElim {s : Solver} {g : Grid} (h : Gh s g) (news : List Candidate) (ds : List RangeDeduction) :
    Gh (s.addElim news ds) g :=
  ⟨h.fits, h.empty, h.count, h.house, h.range, h.distinct, h.src,
    fun c d h0 h1 h2 => h.lower c d h0 h1 (fun hc => h2 (List.mem_append_left _ hc)), h.nextLe, h.first⟩

/-- The cell of a newly eliminated candidate is empty. -/
theorem Gh.new {s : Solver} {g : Grid} (h : Gh s g) {e : Candidate} (he : NewElim s e) : g[e.cell] = 0 := by
  rcases he.2.2 with h0 | h0
  · exact h.open_of h0
  · by_contra hc
    obtain ⟨d', hd'⟩ := h.range e.cell hc
    exact h0 _ (List.mem_of_mem_take (h.src e.cell d' hd')) rfl

theorem Sem.addElim {s : Solver} {g : Grid} (h : Sem s g) (hle : s.cpElim ≤ s.eliminated.length) (news : List Candidate)
    (ds : List RangeDeduction) (hn : ∀ e ∈ news, NewElim s e) : Sem (s.addElim news ds) g := by
  refine ⟨h.gh.addElim news ds, h.closed, h.fresh, h.gsrc, fun hl e he => ?_⟩
  have hl : (s.eliminated ++ news).length < 65536 := hl
  have he : e ∈ (s.eliminated ++ news).drop s.cpElim := he
  rw [List.length_append] at hl
  rw [List.drop_append_of_le_length hle] at he
  rcases List.mem_append.mp he with he | he
  · exact h.pend (by omega) e he
  · exact h.gh.new (hn e he)

/-! ## Progress -/

/-- The number of different candidates in a list. -/
def candCount (l : List Candidate) : Nat := ((l.map (fun e => (e.cell, e.digit))).toFinset).card

theorem candCount_le (l : List Candidate) : candCount l ≤ 729 := by
  have := Finset.card_le_univ ((l.map (fun e => (e.cell, e.digit))).toFinset)
  rw [Fintype.card_prod, Fintype.card_fin, Fintype.card_fin] at this
  exact this

theorem mem_cands {l : List Candidate} {e : Candidate} :
    (e.cell, e.digit) ∈ (l.map (fun e => (e.cell, e.digit))).toFinset ↔ e ∈ l := by
  rw [List.mem_toFinset, List.mem_map]
  constructor
  · rintro ⟨e', h1, h2⟩
    obtain ⟨c, d⟩ := e
    obtain ⟨c', d'⟩ := e'
    cases h2
    exact h1
  · intro h
    exact ⟨e, h, rfl⟩

theorem candCount_mono (l m : List Candidate) : candCount l ≤ candCount (l ++ m) := by
  unfold candCount
  rw [List.map_append, List.toFinset_append]
  exact Finset.card_le_card Finset.subset_union_left

theorem candCount_lt {l m : List Candidate} {e : Candidate} (h1 : e ∉ l) (h2 : e ∈ m) :
    candCount l < candCount (l ++ m) := by
  unfold candCount
  rw [List.map_append, List.toFinset_append]
  refine Finset.card_lt_card ⟨Finset.subset_union_left, ?_⟩
  intro hsub
  exact h1 (mem_cands.mp (hsub (Finset.mem_union_right _ (mem_cands.mpr h2))))

/-- What grows. -/
def gain (s : Solver) : Nat := clueCount s.grid + emptyCount s.cp + candCount s.eliminated

theorem gain_le (s : Solver) : gain s ≤ 891 := by
  have h1 := clueCount_le s.grid
  have h2 := emptyCount_le s.cp
  have h3 := candCount_le s.eliminated
  unfold gain
  omega

/-- Nothing is lost, and something is gained with every entry and eliminated candidate. -/
structure Meas (s s' : Solver) : Prop where
  mono : gain s ≤ gain s'
  strict : s.deduced.length < s'.deduced.length ∨ s.eliminated.length < s'.eliminated.length → gain s < gain s'

theorem Meas.refl (s : Solver) : Meas s s := ⟨Nat.le_refl _, by omega⟩

theorem Meas.trans {a b c : Solver} (h : Meas a b) (h' : Meas b c) : Meas a c := by
  refine ⟨h.mono.trans h'.mono, fun hh => ?_⟩
  have h1 := h.mono
  have h2 := h'.mono
  by_cases hb : a.deduced.length < b.deduced.length ∨ a.eliminated.length < b.eliminated.length
  · have := h.strict hb
    omega
  · have := h'.strict (by omega)
    omega

theorem Fr.meas {fn : Bool} {s s' : Solver} (h : Fr fn s s') : Meas s s' := by
  have h1 := emptyCount_mono h.sub
  have h2 := h.len
  have h3 := h.elim
  have h4 := h.deduced_le
  refine ⟨?_, ?_⟩
  · unfold gain
    rw [h3]
    omega
  · rw [h3]
    unfold gain
    rw [h3]
    omega

theorem Ext.meas {Q : Deduction (List Candidate) → Prop} {s s' : Solver} (h : Ext (NewElim s) Q s s') : Meas s s' := by
  obtain ⟨news, ds, rfl, hx⟩ := h
  have h1 : clueCount (s.addElim news ds).grid = clueCount s.grid := rfl
  have h2 : emptyCount (s.addElim news ds).cp = emptyCount s.cp := rfl
  have h3 : (s.addElim news ds).deduced = s.deduced := rfl
  have h4 : (s.addElim news ds).eliminated = s.eliminated ++ news := rfl
  have h5 := candCount_mono s.eliminated news
  refine ⟨?_, ?_⟩
  · unfold gain
    rw [h1, h2, h4]; omega
  · rw [h3, h4]
    intro hh
    rw [List.length_append] at hh
    obtain ⟨e, he⟩ := List.exists_mem_of_length_pos (l := news) (by omega)
    have := candCount_lt (hx.new e he).1 he
    unfold gain
    rw [h1, h2, h4]; omega

/-- What a strategy does. -/
structure Step (sts : List Strategy) (s : Solver) (r : Solver × Bool) : Prop where
  w : r.2 = true → W 0 r.1
  meas : r.2 = true → Meas s r.1
  sub : Sub r.1.cp s.cp
  new : ∀ e ∈ r.1.deduced, e ∈ s.deduced ∨ s.cp[e.cell].getLsbD e.digit.val = true
  sem : ∀ g, Sem s g → Run sts s r.1 ∧ ∃ g', Gh r.1 g' ∧ (r.2 = true → Sem r.1 g')

/-- What a strategy does, and that it does not fail on a sudoku with a solution. -/
structure StepN (sts : List Strategy) (s : Solver) (r : Solver × Bool) : Prop extends Step sts s r where
  nosol : r.2 = false → r.1.eliminated.length < 65536 → ∀ g, Sem s g → ∀ t, Solved t → ¬ Agree t s

/-- What a strategy does that begins by updating the caches. -/
structure Step1 (sts : List Strategy) (s : Solver) (r : Solver × Bool) : Prop extends StepN sts s r where
  first : First s r
  filled : r.2 = true → ∀ g, Sem s g → ∀ e ∈ s.deduced, r.1.cp[e.cell] = 0#16

theorem Step.after {sts : List Strategy} {s s1 : Solver} {r : Solver × Bool} (h7 : Step sts s1 r)
    (h1 : Step sts s (s1, true)) : Step sts s r := by
  refine ⟨h7.w, fun hr => (h1.meas rfl).trans (h7.meas hr), h7.sub.trans h1.sub, fun e he => ?_, fun g hs => ?_⟩
  · rcases h7.new e he with h | h
    · exact h1.new e h
    · exact Or.inr (h1.sub _ _ h)
  · obtain ⟨r1, g1, _, sem1⟩ := h1.sem g hs
    obtain ⟨r2, g2, gh2⟩ := h7.sem g1 (sem1 rfl)
    exact ⟨r1.trans r2, g2, gh2⟩

theorem StepN.after {sts : List Strategy} {s s1 : Solver} {r : Solver × Bool} (h7 : StepN sts s1 r)
    (h1 : Step sts s (s1, true)) : StepN sts s r := by
  refine ⟨h7.toStep.after h1, fun hr hl g hs t ht ha => ?_⟩
  obtain ⟨r1, g1, _, sem1⟩ := h1.sem g hs
  exact h7.nosol hr hl g1 (sem1 rfl) t ht (r1.pres t ht ha)

theorem StepN.after1 {sts : List Strategy} {s s1 : Solver} {r : Solver × Bool} (h7 : StepN sts s1 r)
    (h1 : Step1 sts s (s1, true)) : Step1 sts s r := by
  refine ⟨h7.after h1.toStep, fun X h2 h3 => ?_, fun _ g hs e he => ?_⟩
  · rcases h1.first X h2 h3 with h | ⟨h, _⟩
    · exact Or.inl (h.keep h7.sub h7.new)
    · cases h
  · have h0 : s1.cp[e.cell] = 0#16 := h1.filled rfl g hs e he
    rw [eq_zero_iff]
    intro i
    by_contra hb
    have := h7.sub _ _ (by simpa using hb)
    rw [h0] at this
    simp at this

/-- Updating the caches. -/
theorem update_step {sts : List Strategy} {fn : Bool} (hn : fn = true → Strategy.nakedSingles ∈ sts) {fuel : Nat}
    (hf : 1000 ≤ fuel) {s : Solver} (h : W 0 s) :
    Res.Post (s.update fuel fn true) (fun r => Step1 sts s r ∧ (r.2 = true → Fr fn s r.1 ∧ Base r.1)) False := by
  refine Res.Post.mono ((update_w (k := 0) (by omega) fn true (by omega) s h).and
    (Q := fun r => ∀ g, Sem s g → ∃ g', Progress fn s r.1 g' ∧ (r.2 = true → Closed r.1 ∧ Fresh r.1 g') ∧
      (r.2 = false → (true = true → ∀ e ∈ s.eliminated.drop s.cpElim, g[e.cell] = 0) → NoSol fn s))
    (fun r hr g hs => update_g fuel fn true hs.gh hs.closed hs.fresh r hr)) ?_ id
  rintro ⟨s1, ok⟩ ⟨⟨h1, h2, h3, h5⟩, h4⟩
  refine ⟨⟨⟨⟨fun _ => h1, fun _ => h2.meas, h2.sub, h2.new, ?_⟩, ?_⟩, h5 rfl, ?_⟩,
    fun hr => ⟨h2, h1, (h3 hr).all, (h3 hr).removed⟩⟩
  · intro g hs
    obtain ⟨g', p, q, _⟩ := h4 g hs
    exact ⟨p.trace.run h2 hn, g', p.gh, fun hr => ⟨p.gh, (q hr).1, (q hr).2, p.trace.gsrc hs.gsrc, Pend.of_all (h3 hr).cpE⟩⟩
  · intro hr hl g hs t ht ha
    obtain ⟨g', p, _, q⟩ := h4 g hs
    have hl : s1.eliminated.length < 65536 := hl
    rw [h2.elim] at hl
    exact q hr (fun _ => hs.pend hl) t (fun _ => ht) (Cons.of_solved ht ha)
  · intro hr g hs e he
    obtain ⟨g', p, q, _⟩ := h4 g hs
    refine (q hr).1 e ?_
    show e ∈ s1.deduced.take s1.cpNext
    obtain ⟨ext, x1, -, -⟩ := h2.ded
    rw [show s1.cpNext = s1.deduced.length from (h3 hr).all, List.take_length, x1]
    exact List.mem_append_left _ he

/-- A search after an update. -/
theorem search_step {sts : List Strategy} {st : Strategy} (hst : st ∈ sts) {fuel : Nat} (hf : 1000 ≤ fuel) {s : Solver}
    (h : W 0 s) {f : Solver → Res (Solver × Bool)} (hcur : usesHp st = true → HpCurrent s)
    (hsearch : ∀ s1, Base s1 → s1.hp = s.hp → Res.Post (f s1) (fun r => Ext (NewElim s1) (DedOf st s1.cp s1.hp) s1 r.1) False) :
    Res.Post (andThen (s.update fuel false true) (fun s1 => do
      let (s2, _) ← f s1
      .ok (s2, true))) (Step1 sts s) False := by
  unfold andThen
  refine Res.Post.bind (update_step (sts := sts) (fn := false) (fun h => by cases h) hf h) ?_
  rintro ⟨s1, ok⟩ ⟨h1, h2⟩
  cases ok
  · exact h1
  · simp only [if_true]
    obtain ⟨h3, h4⟩ := h2 rfl
    refine Res.Post.bind (hsearch s1 h4 h3.hp) ?_
    rintro ⟨s2, b⟩ h5
    have hc : usesHp st = true → HpCurrent s1 := by
      intro hu
      obtain ⟨ext, x1, _, x3⟩ := h3.ded
      rw [x3 rfl, List.append_nil] at x1
      intro x d p
      have hh := hcur hu x d p
      show s1.hp[x][d].getLsbD p.val = true ↔ _
      rw [h3.hp, x1, h3.elim]
      exact hh
    have hmeas := h5.meas
    refine StepN.after1 (s1 := s1) ⟨⟨fun _ => ?_, fun _ => hmeas, ?_, ?_, ?_⟩, fun hc => Bool.noConfusion hc⟩ h1
    · obtain ⟨news, ds, rfl, _⟩ := h5
      exact h4.w.addElim _ _
    · obtain ⟨news, ds, rfl, _⟩ := h5
      exact Sub.refl _
    · obtain ⟨news, ds, rfl, _⟩ := h5
      exact fun e he => Or.inl he
    · intro g hs
      have hset : Settled s1 g := ⟨h4, hs⟩
      have hrun := hset.run hst hc h5
      obtain ⟨news, ds, rfl, hx⟩ := h5
      exact ⟨hrun, g, hs.gh.addElim _ _, fun _ => hs.addElim h4.w.elimLe _ _ hx.new⟩

end Verif.Strat
