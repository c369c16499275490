import Verif.Proofs.StratSolve
import Verif.Spec.History

/-!
# The strategy solver: its public methods

`Inv s g X`: what the methods before `solve` keep.  `Reaches.inv`: every use of them keeps it.
-/
namespace Verif.Strat

open Bitset Generator

/-- A sudoku with a solution is consistent. -/
theorem Consistent.of_solution {g t : Grid} {X : Fin 81 → Digit → Prop} (h : SolutionOf g X t) : Consistent g X := by
  obtain ⟨⟨ht, h3⟩, h4⟩ := h
  refine ⟨?_, ?_, ?_⟩
  · intro c c' hne hs h0 he
    have h5 : g[c'] ≠ 0 := by rw [← he]; exact h0
    exact ht.2 c c' hne hs (by rw [h3 c h0, h3 c' h5, he])
  · intro c d hd hx
    refine h4 c d hx ?_
    rw [h3 c (by rw [hd]; exact Digit.get_ne_zero _), hd]
  · intro c h0
    refine ⟨dig t c, h0, fun hx => h4 c _ hx (dig_spec ht c), ?_⟩
    intro c' hne hs he
    refine ht.2 c' c hne hs ?_
    rw [h3 c' (by rw [he]; exact Digit.get_ne_zero _), he, ← dig_spec ht c]

/-! ## The grid -/

/-- Entering a list of candidates. -/
def enterAll (g : Grid) (l : List Candidate) : Grid := l.foldl (fun (g : Grid) e => g.set e.cell e.digit.get) g

theorem enterAll_get (l : List Candidate) : ∀ (g : Grid) (c : Fin 81), (∀ e ∈ l, e.cell ≠ c) → (enterAll g l)[c] = g[c] := by
  induction l with
  | nil => intro g c _; rfl
  | cons x xs ih =>
    intro g c h
    show (enterAll (g.set x.cell x.digit.get) xs)[c] = g[c]
    rw [ih _ c (fun e he => h e (by simp [he])), get_set_fin, if_neg (h x (by simp))]

/-- If the grid and the entries agree with `t` on a cell that is filled, so does the result. -/
theorem enterAll_agree (l : List Candidate) : ∀ (g t : Grid) (c : Fin 81), (∀ e ∈ l, e.cell = c → t[c] = e.digit.get) →
    (g[c] = t[c] ∨ ∃ e ∈ l, e.cell = c) → (enterAll g l)[c] = t[c] := by
  induction l with
  | nil =>
    intro g t c _ h
    rcases h with h | ⟨e, he, _⟩
    · exact h
    · cases he
  | cons x xs ih =>
    intro g t c h h'
    show (enterAll (g.set x.cell x.digit.get) xs)[c] = t[c]
    refine ih _ t c (fun e he => h e (by simp [he])) ?_
    by_cases hx : x.cell = c
    · left
      rw [get_set_fin, if_pos hx, h x (by simp) hx]
    · rcases h' with h' | ⟨e, he, hc⟩
      · left
        rw [get_set_fin, if_neg hx]
        exact h'
      · rcases List.mem_cons.mp he with rfl | he
        · exact absurd hc hx
        · exact Or.inr ⟨e, he, hc⟩

theorem updateGrid_eq (s : Solver) : s.updateGrid = { s with grid := enterAll s.grid s.deduced } := rfl

/-! ## The invariant -/

/-- What every method before `solve` keeps. -/
structure Inv (s : Solver) (g : Grid) (X : Fin 81 → Digit → Prop) : Prop where
  w : W 0 s
  wf : ∀ c : Fin 81, g[c] ≠ 0 → ∃ d : Digit, g[c] = d.get
  none : s.deductions = []
  ded : ∀ (c : Fin 81) (d : Digit), (⟨c, d⟩ : Candidate) ∈ s.deduced ↔ g[c] = d.get
  elim : ∀ (c : Fin 81) (d : Digit), (⟨c, d⟩ : Candidate) ∈ s.eliminated ↔ X c d
  len : s.deduced.length = clueCount g
  grid : ∀ c : Fin 81, s.grid[c] ≠ 0 → s.grid[c] = g[c]

theorem Inv.ded' {s : Solver} {g : Grid} {X : Fin 81 → Digit → Prop} (h : Inv s g X) {e : Candidate} (he : e ∈ s.deduced) :
    g[e.cell] = e.digit.get := (h.ded e.cell e.digit).mp he

theorem Inv.gsrc {s : Solver} {g : Grid} {X : Fin 81 → Digit → Prop} (h : Inv s g X) : GridSrc s := by
  intro c
  by_cases hc : s.grid[c] = 0
  · exact Or.inl hc
  · obtain ⟨d, hd⟩ := h.wf c (by rw [← h.grid c hc]; exact hc)
    exact Or.inr ⟨d, by rw [h.grid c hc, hd], (h.ded c d).mpr hd⟩

/-- After `update_grid` the grid holds the digits. -/
theorem Inv.enterAll {s : Solver} {g : Grid} {X : Fin 81 → Digit → Prop} (h : Inv s g X) :
    enterAll s.grid s.deduced = g := by
  apply Vector.ext
  intro i hi
  have key : (Strat.enterAll s.grid s.deduced)[(⟨i, hi⟩ : Fin 81)] = g[(⟨i, hi⟩ : Fin 81)] := by
    refine enterAll_agree _ _ _ _ ?_ ?_
    · intro e he hce
      rw [← h.ded' he]
      exact congrArg (fun c : Fin 81 => g[c]) hce.symm
    · by_cases h0 : g[(⟨i, hi⟩ : Fin 81)] = 0
      · left
        by_contra hc
        have h1 : s.grid[(⟨i, hi⟩ : Fin 81)] ≠ 0 := fun h2 => hc (h2.trans h0.symm)
        exact hc (h.grid _ h1)
      · obtain ⟨d, hd⟩ := h.wf _ h0
        exact Or.inr ⟨_, (h.ded _ d).mpr hd, rfl⟩
  exact key

theorem clueCount_mono {g g' : Grid} (h : ∀ c : Fin 81, g[c] ≠ 0 → g'[c] ≠ 0) : clueCount g ≤ clueCount g' := by
  apply List.countP_mono_left
  intro c _ hc
  rw [decide_eq_true_iff] at hc ⊢
  exact h c hc

/-- `update_grid` -/
theorem Inv.updateGrid {s : Solver} {g : Grid} {X : Fin 81 → Digit → Prop} (h : Inv s g X) :
    Inv s.updateGrid g X ∧ s.updateGrid.grid = g := by
  have hg : s.updateGrid.grid = g := h.enterAll
  have hle : clueCount s.grid ≤ clueCount g := clueCount_mono (fun c hc => by rw [← h.grid c hc]; exact hc)
  refine ⟨⟨⟨h.w.fits, h.w.fitsH, h.w.fitsP, h.w.count, h.w.next, h.w.nextLe, h.w.elimLe, h.w.hpElimLe, h.w.hpNextLe, ?_, ?_,
    h.w.last, h.w.done, h.w.hpEx⟩, h.wf, h.none, h.ded, h.elim, h.len, ?_⟩, hg⟩
  · have := h.w.budget
    show s.deduced.length ≤ 81 + 0 + clueCount s.updateGrid.grid + emptyCount s.cp
    rw [hg]; omega
  · rw [hg]; exact h.wf
  · intro c _
    rw [hg]

/-- What the caches mean is not changed by `update_grid`. -/
theorem Sem.updateGrid {s : Solver} {g : Grid} {X : Fin 81 → Digit → Prop} (h : Inv s g X) {gh : Grid} (hs : Sem s gh) :
    Sem s.updateGrid gh := by
  have h' := hs.gh
  exact ⟨⟨h'.fits, h'.empty, h'.count, h'.house, h'.range, h'.distinct, h'.src, h'.lower, h'.nextLe, h'.first⟩, hs.closed,
    hs.fresh, h.updateGrid.1.gsrc, hs.pend⟩

/-- `Agree` in terms of the digits and the excluded digits. -/
theorem Inv.agree {s : Solver} {g : Grid} {X : Fin 81 → Digit → Prop} (h : Inv s g X) {t : Grid}
    (h1 : ∀ c : Fin 81, g[c] ≠ 0 → t[c] = g[c]) (h2 : ∀ c d, X c d → t[c] ≠ d.get) : Agree t s := by
  refine ⟨?_, ?_, ?_⟩
  · intro e he
    have := h.ded' he
    rw [h1 _ (by rw [this]; exact Digit.get_ne_zero _), this]
  · intro e he
    exact h2 _ _ ((h.elim _ _).mp he)
  · intro c hc
    have := h.grid c hc
    rw [this]
    exact h1 c (by rw [← this]; exact hc)

theorem Inv.agree_of {s : Solver} {g : Grid} {X : Fin 81 → Digit → Prop} (h : Inv s g X) {t : Grid}
    (ht : SolutionOf g X t) : Agree t s := h.agree ht.1.2 ht.2

/-- A consistent state has a grid as in `Cons`. -/
theorem Inv.cons {s : Solver} {g : Grid} {X : Fin 81 → Digit → Prop} (h : Inv s g X) (hc : Consistent g X) :
    ∃ t, Cons t s := by
  have hd : ∀ c : Fin 81, ∃ d : Digit, (g[c] ≠ 0 → g[c] = d.get) ∧ (g[c] = 0 → Possible g X c d) := by
    intro c
    by_cases h0 : g[c] = 0
    · obtain ⟨d, hd⟩ := hc.open_ c h0
      exact ⟨d, fun hn => absurd h0 hn, fun _ => hd⟩
    · obtain ⟨d, hd⟩ := h.wf c h0
      exact ⟨d, fun _ => hd, fun h => absurd h h0⟩
  choose f hf1 hf2 using hd
  let t : Grid := Vector.ofFn (fun c => (f c).get)
  have ht : ∀ c : Fin 81, t[c] = (f c).get := fun c => by
    show (Vector.ofFn _)[c.val] = _
    rw [Vector.getElem_ofFn]
  refine ⟨t, fun c => ⟨_, ht c⟩, h.agree ?_ ?_, ?_⟩
  · intro c h0
    rw [ht, hf1 c h0]
  · intro c d hx he
    rw [ht] at he
    have := Digit.get_inj he
    subst this
    by_cases h0 : g[c] = 0
    · exact (hf2 c h0).2.1 hx
    · exact hc.allowed c _ (hf1 c h0) hx
  · intro e he c hne hs heq
    have hg := h.ded' he
    have hg0 : g[e.cell] ≠ 0 := by rw [hg]; exact Digit.get_ne_zero _
    by_cases h0 : g[c] = 0
    · refine (hf2 c h0).2.2 e.cell hne.symm (SameHouse.symm' hs) ?_
      rw [hg, ← heq, ht]
    · refine hc.distinct c e.cell hne hs h0 ?_
      rw [hg, ← heq, ht, hf1 c h0]

/-! ## The constructors -/

theorem W.start {l m : List Candidate} (hl : l.length ≤ 81) :
    W 0 { Solver.empty with deduced := l, eliminated := m } := by
  have hall : ∀ i : Fin 9, (ALL 16 9).getLsbD i.val = true := by decide
  have hfit : Fits 9 (ALL 16 9) := by intro i hi; rw [bit_all (by omega) (by omega)] at hi; simpa using hi
  have hcp : ∀ c : Fin 81, (Solver.empty.cp)[c] = ALL 16 9 := fun c => Vector.getElem_replicate ..
  have hhs : ∀ c : Fin 27, (Solver.empty.hs)[c] = NONE 16 := fun c => Vector.getElem_replicate ..
  have hhp : ∀ (c : Fin 27) (d : Digit), (Solver.empty.hp)[c][d] = ALL 16 9 := fun c d => by
    show ((Vector.replicate 27 (Vector.replicate 9 (ALL 16 9)))[c.val])[d.val] = _
    rw [Vector.getElem_replicate, Vector.getElem_replicate]
  have hgr : ∀ c : Fin 81, (Solver.empty.grid)[c] = 0 := fun c => Vector.getElem_replicate ..
  refine ⟨fun c => ?_, fun c => ?_, fun c d => ?_, Nat.zero_le _, rfl, Nat.zero_le _, Nat.zero_le _, Nat.zero_le _,
    Nat.zero_le _, ?_, ?_, Nat.zero_le _, ⟨0, Nat.le_refl _, Nat.zero_le _, ?_⟩, ⟨0, Nat.le_refl _, Nat.zero_le _, ?_⟩⟩
  · show Fits 9 (Solver.empty.cp)[c]
    rw [hcp]; exact hfit
  · show Fits 9 (Solver.empty.hs)[c]
    rw [hhs]; intro i hi; rw [bit_none] at hi; cases hi
  · show Fits 9 (Solver.empty.hp)[c][d]
    rw [hhp]; exact hfit
  · show l.length ≤ _
    omega
  · intro c hc
    exact absurd (hgr c) hc
  · intro e he
    simp at he
  · intro x d p
    show (Solver.empty.hp)[x][d].getLsbD p.val = true ↔ CandL (l.take 0) (m.take 0) _ d
    rw [hhp, hall p]
    simp [CandL]

theorem Sem.start (l m : List Candidate) : Sem { Solver.empty with deduced := l, eliminated := m } (Vector.replicate 81 0) := by
  have hall : ∀ i : Fin 9, (ALL 16 9).getLsbD i.val = true := by decide
  have hfit : Fits 9 (ALL 16 9) := by intro i hi; rw [bit_all (by omega) (by omega)] at hi; simpa using hi
  have hcp : ∀ c : Fin 81, (Solver.empty.cp)[c] = ALL 16 9 := fun c => Vector.getElem_replicate ..
  have hhs : ∀ c : Fin 27, (Solver.empty.hs)[c] = NONE 16 := fun c => Vector.getElem_replicate ..
  have hgr : ∀ c : Fin 81, (Vector.replicate 81 (0 : UInt8))[c] = 0 := fun c => Vector.getElem_replicate ..
  refine ⟨⟨fun c => ?_, fun c hc => absurd (hgr c) hc, ?_, ?_, fun c hc => absurd (hgr c) hc, ?_, ?_, ?_, Nat.zero_le _, ?_⟩,
    ?_, ?_, ?_, fun _ e _ => hgr e.cell⟩
  · show Fits 9 (Solver.empty.cp)[c]
    rw [hcp]; exact hfit
  · show 0 = clueCount _
    decide +kernel
  · intro x d
    show (Solver.empty.hs)[x].getLsbD d.val = true ↔ _
    rw [hhs, bit_none]
    constructor
    · intro h; cases h
    · rintro ⟨c, _, hc⟩
      rw [hgr] at hc
      exact absurd hc.symm (Digit.get_ne_zero d)
  · intro c c' _ _ hc
    exact absurd (hgr c) hc
  · intro c d hc
    rw [hgr] at hc
    exact absurd hc.symm (Digit.get_ne_zero d)
  · intro c d _ _ _
    show (Solver.empty.cp)[c].getLsbD d.val = true
    rw [hcp]; exact hall d
  · intro i e hi
    exact absurd hi (Nat.not_lt_zero _)
  · intro e he
    have he : e ∈ l.take 0 := he
    simp at he
  · intro c c' d _ _ hc
    rw [hgr] at hc
    exact absurd hc.symm (Digit.get_ne_zero d)
  · exact fun c => Or.inl (hgr c)

/-- `from_sudoku` -/
theorem fromSudoku_spec {g : Grid} (hg : WellFormed g) :
    ∃ s, Solver.fromSudoku g = .ok s ∧ Inv s g (fun _ _ => False) ∧ Sem s (Vector.replicate 81 0) := by
  have hr : ∀ c : Fin 81, g[c] ≠ 0 → g[c] = (dig g c).get := by
    intro c hc
    have h9 : g[c].toNat ≤ 9 := UInt8.le_iff_toNat_le.mp (hg c)
    have h1 : g[c].toNat ≠ 0 := fun h => hc (UInt8.toNat_inj.mp h)
    apply UInt8.toNat_inj.mp
    rw [Digit.get_toNat]
    show _ = (g[c].toNat - 1) % 9 + 1
    omega
  have hmap : ((List.finRange 81).filter (fun c => decide (g[c] ≠ 0))).mapM (fun c => Candidate.new c.val g[c].toNat) =
      .ok (((List.finRange 81).filter (fun c => decide (g[c] ≠ 0))).map (fun c => ⟨c, dig g c⟩)) := by
    refine Res.mapM_ok _ _ _ ?_
    intro c hc
    rw [List.mem_filter, decide_eq_true_iff] at hc
    have h9 : g[c].toNat ≤ 9 := UInt8.le_iff_toNat_le.mp (hg c)
    have h1 : g[c].toNat ≠ 0 := fun h => hc.2 (UInt8.toNat_inj.mp h)
    unfold Candidate.new
    rw [dif_pos c.isLt, dif_pos (by omega)]
    congr 2
    apply Fin.ext
    show g[c].toNat - 1 = (g[c].toNat - 1) % 9
    omega
  refine ⟨{ Solver.empty with deduced := ((List.finRange 81).filter (fun c => decide (g[c] ≠ 0))).map (fun c => ⟨c, dig g c⟩) },
    ?_, ⟨W.start ?_, fun c hc => ⟨_, hr c hc⟩, rfl, ?_, ?_, ?_, ?_⟩, Sem.start _ _⟩
  · unfold Solver.fromSudoku
    rw [hmap]
    rfl
  · rw [List.length_map]
    refine Nat.le_trans (List.length_filter_le _ _) ?_
    simp
  · intro c d
    rw [List.mem_map]
    constructor
    · rintro ⟨x, hx, he⟩
      rw [List.mem_filter, decide_eq_true_iff] at hx
      cases he
      exact hr c hx.2
    · intro hc
      have h0 : g[c] ≠ 0 := by rw [hc]; exact Digit.get_ne_zero _
      refine ⟨c, List.mem_filter.mpr ⟨List.mem_finRange c, decide_eq_true h0⟩, ?_⟩
      have := hr c h0
      rw [hc] at this
      rw [← Digit.get_inj this]
  · intro c d
    constructor
    · intro h; cases h
    · intro h; cases h
  · show (List.map _ _).length = _
    rw [List.length_map, ← List.countP_eq_length_filter]
    rfl
  · intro c hc
    exact absurd (Vector.getElem_replicate ..) hc

/-- `from_grid_state` -/
theorem fromGridState_spec (state : Vector CellState 81) :
    ∃ s, Solver.fromGridState state = .ok s ∧ Inv s (digitsOf state) (excludedBy state) ∧ Sem s (Vector.replicate 81 0) := by
  let ent : Fin 81 → List Candidate := fun c => match state[c] with
    | .digit d => [⟨c, d⟩]
    | .candidates _ => []
  let exc : Fin 81 → List Candidate := fun c => match state[c] with
    | .digit _ => []
    | .candidates cands => (mems 9 (Bitset.compl 9 cands)).map (fun d => ⟨c, d⟩)
  have hdig : ∀ c : Fin 81, (digitsOf state)[c] = match state[c] with
      | .digit d => d.get
      | .candidates _ => 0 := fun c => by
    show (Vector.map _ state)[c.val] = _
    rw [Vector.getElem_map]
    rfl
  have hfold : ∀ (l : List (Fin 81)) (a b : List Candidate), l.foldlM (m := Res) (fun (acc : List Candidate × List Candidate) cell =>
      match state[cell] with
      | .digit d => .ok (acc.1 ++ [⟨cell, d⟩], acc.2)
      | .candidates cands => do
        let digits ← Bitset.items 9 (Bitset.compl 9 cands)
        .ok (acc.1, acc.2 ++ digits.map (fun d => ⟨cell, d⟩))) (a, b) = .ok (a ++ l.flatMap ent, b ++ l.flatMap exc) := by
    intro l
    induction l with
    | nil => intro a b; simp only [List.flatMap_nil, List.append_nil]; rfl
    | cons x xs ih =>
      intro a b
      rw [List.foldlM_cons, List.flatMap_cons, List.flatMap_cons]
      cases hx : state[x] with
      | digit d =>
        have h1 : ent x = [⟨x, d⟩] := by show (match state[x] with | .digit d => [_] | .candidates _ => []) = _; rw [hx]
        have h2 : exc x = [] := by show (match state[x] with | .digit d => [] | .candidates _ => _) = _; rw [hx]
        rw [h1, h2, List.nil_append, ← List.append_assoc]
        exact ih _ _
      | candidates cands =>
        have h1 : ent x = [] := by show (match state[x] with | .digit d => [_] | .candidates _ => []) = _; rw [hx]
        have h2 : exc x = (mems 9 (Bitset.compl 9 cands)).map (fun d => ⟨x, d⟩) := by
          show (match state[x] with | .digit d => [] | .candidates cands => _) = _; rw [hx]
        have hfit : Fits 9 (Bitset.compl 9 cands) := by
          have : Fits 9 (ALL 16 9) := by intro i hi; rw [bit_all (by omega) (by omega)] at hi; exact hi
          exact this.without
        dsimp only
        rw [items_eq (by omega) (by omega) hfit, Res.ok_bind, Res.ok_bind, h1, h2, List.nil_append, ← List.append_assoc]
        exact ih _ _
  have hlen : ∀ l : List (Fin 81), (l.flatMap ent).length = l.countP (fun c => decide ((digitsOf state)[c] ≠ 0)) := by
    intro l
    induction l with
    | nil => rfl
    | cons x xs ih =>
      rw [List.flatMap_cons, List.length_append, ih, List.countP_cons, hdig]
      cases hx : state[x] with
      | digit d =>
        have h1 : ent x = [⟨x, d⟩] := by show (match state[x] with | .digit d => [_] | .candidates _ => []) = _; rw [hx]
        rw [h1, if_pos (by simpa using Digit.get_ne_zero d), Nat.add_comm]
        rfl
      | candidates cands =>
        have h1 : ent x = [] := by show (match state[x] with | .digit d => [_] | .candidates _ => []) = _; rw [hx]
        rw [h1]
        simp
  have hc81 : clueCount (digitsOf state) ≤ 81 := clueCount_le _
  refine ⟨{ Solver.empty with deduced := (List.finRange 81).flatMap ent, eliminated := (List.finRange 81).flatMap exc },
    ?_, ⟨W.start ?_, ?_, rfl, ?_, ?_, hlen _, ?_⟩, Sem.start _ _⟩
  · unfold Solver.fromGridState
    exact congrArg (fun x : Res (List Candidate × List Candidate) => x >>= fun p =>
      .ok { Solver.empty with deduced := p.1, eliminated := p.2 }) (hfold (List.finRange 81) [] [])
  · rw [hlen]; exact hc81
  · intro c hc
    rw [hdig] at hc ⊢
    cases hx : state[c] with
    | digit d => exact ⟨d, rfl⟩
    | candidates cands => rw [hx] at hc; exact absurd rfl hc
  · intro c d
    show _ ∈ List.flatMap _ _ ↔ _
    rw [List.mem_flatMap, hdig]
    constructor
    · rintro ⟨x, _, hx⟩
      have hx : (⟨c, d⟩ : Candidate) ∈ (match state[x] with | .digit d => [(⟨x, d⟩ : Candidate)] | .candidates _ => []) := hx
      cases hs : state[x] with
      | digit d' =>
        rw [hs] at hx
        simp only [List.mem_singleton] at hx
        cases hx
        rw [hs]
      | candidates cands => rw [hs] at hx; cases hx
    · intro h
      refine ⟨c, List.mem_finRange c, ?_⟩
      show (⟨c, d⟩ : Candidate) ∈ (match state[c] with | .digit d => [(⟨c, d⟩ : Candidate)] | .candidates _ => [])
      cases hs : state[c] with
      | digit d' =>
        rw [hs] at h
        rw [Digit.get_inj h]
        simp
      | candidates cands => rw [hs] at h; exact absurd h.symm (Digit.get_ne_zero d)
  · intro c d
    show _ ∈ List.flatMap _ _ ↔ _
    unfold excludedBy
    rw [List.mem_flatMap]
    constructor
    · rintro ⟨x, _, hx⟩
      have hx : (⟨c, d⟩ : Candidate) ∈ (match state[x] with
        | .digit d => [] | .candidates cands => (mems 9 (Bitset.compl 9 cands)).map (fun d => (⟨x, d⟩ : Candidate))) := hx
      cases hs : state[x] with
      | digit d' => rw [hs] at hx; cases hx
      | candidates cands =>
        rw [hs] at hx
        obtain ⟨d', hd', he⟩ := List.mem_map.mp hx
        cases he
        rw [mem_mems, bit_compl] at hd'
        rw [hs]
        show d.val ∉ elems cands
        rw [mem_elems]
        exact hd'
    · intro h
      refine ⟨c, List.mem_finRange c, ?_⟩
      show (⟨c, d⟩ : Candidate) ∈ (match state[c] with
        | .digit d => [] | .candidates cands => (mems 9 (Bitset.compl 9 cands)).map (fun d => (⟨c, d⟩ : Candidate)))
      cases hs : state[c] with
      | digit d' => rw [hs] at h; exact h.elim
      | candidates cands =>
        rw [hs] at h
        have h : d.val ∉ elems cands := h
        rw [mem_elems] at h
        exact List.mem_map.mpr ⟨d, by rw [mem_mems, bit_compl]; exact h, rfl⟩
  · intro c hc
    exact absurd (Vector.getElem_replicate ..) hc

/-! ## The methods -/

/-- The update behind `cell_state` and `grid_state`. -/
theorem look_spec {s : Solver} {g : Grid} {X : Fin 81 → Digit → Prop} (h : Inv s g X) {fuel : Nat} (hf : 1000 ≤ fuel) :
    Res.Post (s.updateGrid.update fuel false false) (fun r => Inv r.1 g X ∧ r.1.grid = g ∧
      (∀ gh, Sem s gh → ∃ gh', Gh r.1 gh') ∧ (Consistent g X → ∀ gh, Sem s gh → ∃ gh', Settled r.1 gh')) False := by
  obtain ⟨h1, hg⟩ := h.updateGrid
  refine Res.Post.mono ((update_w (k := 0) (by omega) false false (by omega) _ h1.w).and
    (Q := fun r => ∀ gh, Sem s gh → ∃ g', Progress false s.updateGrid r.1 g' ∧ (r.2 = true → Closed r.1 ∧ Fresh r.1 g') ∧
      (r.2 = false → (false = true → ∀ e ∈ s.updateGrid.eliminated.drop s.updateGrid.cpElim, gh[e.cell] = 0) →
        NoSol false s.updateGrid))
    (fun r hr gh hs => update_g fuel false false (hs.updateGrid h).gh (hs.updateGrid h).closed (hs.updateGrid h).fresh r hr))
    ?_ id
  rintro ⟨s1, ok⟩ ⟨⟨w1, w2, w3, _⟩, h4⟩
  obtain ⟨ext, x1, x2, x3⟩ := w2.ded
  have x3 := x3 rfl
  subst x3
  rw [List.append_nil] at x1
  rw [List.map_nil, List.append_nil] at x2
  have hgr : s1.grid = g := (w2.grid rfl).trans hg
  refine ⟨⟨w1, h.wf, ?_, ?_, ?_, ?_, ?_⟩, hgr, ?_, ?_⟩
  · rw [x2]; exact h1.none
  · rw [x1]; exact h1.ded
  · rw [w2.elim]; exact h1.elim
  · rw [x1]; exact h1.len
  · intro c _
    show s1.grid[c] = g[c]
    rw [hgr]
  · intro gh hs
    obtain ⟨g', p, _⟩ := h4 gh hs
    exact ⟨g', p.gh⟩
  · intro hc gh hs
    obtain ⟨g', p, p1, p2⟩ := h4 gh hs
    have hok : ok = true := by
      by_contra hb
      rw [Bool.not_eq_true] at hb
      obtain ⟨t, ht⟩ := h1.cons hc
      exact p2 hb (fun h => by cases h) t (fun h => by cases h) ht
    have hu := w3 hok
    exact ⟨g', ⟨w1, hu.all, hu.removed⟩, p.gh, (p1 hok).1, (p1 hok).2, p.trace.gsrc h1.gsrc, Pend.of_all hu.cpE⟩

/-- What `cell_state` and `grid_state` report of a cell. -/
theorem stateOf_spec {s : Solver} {g : Grid} {X : Fin 81 → Digit → Prop} (h : Inv s g X) (hg : s.grid = g) (c : Fin 81) :
    (g[c] = 0 ∧ s.stateOf c = .ok (.candidates s.cp[c])) ∨ ∃ d : Digit, g[c] = d.get ∧ s.stateOf c = .ok (.digit d) := by
  unfold Solver.stateOf
  rw [hg]
  by_cases h0 : g[c] = 0
  · left
    rw [if_neg (by simpa using h0)]
    exact ⟨h0, rfl⟩
  · right
    obtain ⟨d, hd⟩ := h.wf c h0
    refine ⟨d, hd, ?_⟩
    rw [if_pos h0]
    have h9 := d.isLt
    have ht : g[c].toNat = d.val + 1 := by rw [hd, Digit.get_toNat]
    unfold digitOf
    rw [dif_pos (by omega)]
    show Res.ok _ = _
    congr 2
    apply Fin.ext
    show g[c].toNat - 1 = d.val
    omega

theorem look_ok {s : Solver} {g : Grid} {X : Fin 81 → Digit → Prop} (h : Inv s g X) {fuel : Nat} (hf : 1000 ≤ fuel) :
    ∃ s1 ok, s.updateGrid.update fuel false false = .ok (s1, ok) ∧ Inv s1 g X ∧ s1.grid = g ∧
      (∀ gh, Sem s gh → ∃ gh', Gh s1 gh') ∧ (Consistent g X → ∀ gh, Sem s gh → ∃ gh', Settled s1 gh') := by
  have hl := look_spec h hf
  cases hu : s.updateGrid.update fuel false false with
  | ok p =>
    rw [hu] at hl
    exact ⟨p.1, p.2, rfl, hl⟩
  | err => rw [hu] at hl; exact hl.elim
  | panic => rw [hu] at hl; exact hl.elim
  | timeout => rw [hu] at hl; exact hl.elim

/-- `cell_state` -/
theorem cellState_ok {s : Solver} {g : Grid} {X : Fin 81 → Digit → Prop} (h : Inv s g X) {fuel : Nat} (hf : 1000 ≤ fuel)
    (c : Fin 81) : ∃ s1 r, s.cellState fuel c = .ok (s1, r) ∧ s1.stateOf c = .ok r ∧ Inv s1 g X ∧ s1.grid = g ∧
      (∀ gh, Sem s gh → ∃ gh', Gh s1 gh') ∧ (Consistent g X → ∀ gh, Sem s gh → ∃ gh', Settled s1 gh') := by
  obtain ⟨s1, ok, e, h1, h2, h3⟩ := look_ok h hf
  have hst : ∃ r, s1.stateOf c = .ok r := by
    rcases stateOf_spec h1 h2 c with ⟨_, e⟩ | ⟨d, _, e⟩
    · exact ⟨_, e⟩
    · exact ⟨_, e⟩
  obtain ⟨r, hr⟩ := hst
  refine ⟨s1, r, ?_, hr, h1, h2, h3⟩
  unfold Solver.cellState
  rw [e, Res.ok_bind]
  show (s1.stateOf c >>= fun x => Res.ok (s1, x)) = _
  rw [hr]
  rfl

/-- The possible digits of the caches, if nothing is inconsistent. -/
theorem Settled.possible {s : Solver} {g : Grid} {X : Fin 81 → Digit → Prop} (h : Inv s g X) (hc : Consistent g X)
    {gh : Grid} (hs : Settled s gh) (c : Fin 81) (d : Digit) : s.cp[c].getLsbD d.val = true ↔ Possible g X c d := by
  obtain ⟨t, ht⟩ := h.cons hc
  have := congrFun (congrFun (hs.candsC ht) c) d
  show Cands s.cp c d ↔ _
  rw [this]
  unfold CandL Possible
  constructor
  · rintro ⟨h1, h2⟩
    refine ⟨?_, fun hx => h1 _ ((h.elim c d).mpr hx) ⟨rfl, rfl⟩, ?_⟩
    · by_contra h0
      obtain ⟨d', hd'⟩ := h.wf c h0
      exact (h2 _ ((h.ded c d').mpr hd')).1 rfl
    · intro c' _ hs hg
      exact (h2 _ ((h.ded c' d).mpr hg)).2 ⟨rfl, hs⟩
  · rintro ⟨h0, h1, h2⟩
    refine ⟨?_, ?_⟩
    · rintro ⟨c', d'⟩ he ⟨e1, e2⟩
      dsimp only at e1 e2
      subst e1 e2
      exact h1 ((h.elim _ _).mp he)
    · rintro ⟨c', d'⟩ he
      have hg := h.ded' he
      dsimp only at hg ⊢
      have hne : c' ≠ c := by
        rintro rfl
        rw [h0] at hg
        exact Digit.get_ne_zero d' hg.symm
      refine ⟨hne, ?_⟩
      rintro ⟨rfl, hs⟩
      exact h2 c' hne hs hg

/-- No possible digit is ever missing. -/
theorem Gh.possible {s : Solver} {g : Grid} {X : Fin 81 → Digit → Prop} (h : Inv s g X) {gh : Grid} (hs : Gh s gh)
    {c : Fin 81} {d : Digit} (hp : Possible g X c d) : s.cp[c].getLsbD d.val = true := by
  obtain ⟨h0, h1, h2⟩ := hp
  refine hs.lower c d ?_ ?_ (fun he => h1 ((h.elim c d).mp he))
  · by_contra hc
    obtain ⟨d', hd'⟩ := hs.range c hc
    have := h.ded' (List.mem_of_mem_take (hs.src c d' hd'))
    dsimp only at this
    rw [h0] at this
    exact Digit.get_ne_zero d' this.symm
  · intro c' hne hsh hg
    exact h2 c' hne.symm (SameHouse.symm' hsh) (h.ded' (List.mem_of_mem_take (hs.src c' d hg)))

/-- `insert_candidate` -/
theorem insert_spec {s : Solver} {g : Grid} {X : Fin 81 → Digit → Prop} (h : Inv s g X) (e : Candidate) :
    ((g[e.cell] = 0 ∨ g[e.cell] = e.digit.get) ∧ ∃ s', s.insertCandidate e = .ok (s', true) ∧
      Inv s' (g.set e.cell e.digit.get) X ∧ ∀ gh, Sem s gh → Sem s' gh) ∨
    (g[e.cell] ≠ 0 ∧ g[e.cell] ≠ e.digit.get ∧ ∃ s', s.insertCandidate e = .ok (s', false) ∧ Inv s' g X ∧
      ∀ gh, Sem s gh → Sem s' gh) := by
  obtain ⟨h1, hg⟩ := h.updateGrid
  have hsem : ∀ gh, Sem s gh → Sem s.updateGrid gh := fun gh hs => hs.updateGrid h
  unfold Solver.insertCandidate
  generalize s.updateGrid = s1 at *
  have hdl : s1.deductions.dropLast = s1.deductions := by rw [h1.none]; rfl
  rcases push_cases s1 e (.nakedSingles e) (Or.inl rfl) with ⟨h2, e2⟩ | ⟨h2, e2⟩ | ⟨h2, h3, e2⟩
  · rw [hg] at h2
    left
    refine ⟨Or.inr h2, { s1 with deductions := s1.deductions.dropLast }, ?_, ?_, ?_⟩
    · rw [e2, Res.ok_bind]; rfl
    · have hset : g.set e.cell e.digit.get = g := by
        apply Vector.ext
        intro i hi
        have := get_set_fin g e.cell ⟨i, hi⟩ e.digit.get
        have this : (g.set e.cell.val e.digit.get e.cell.isLt)[i] = if e.cell = ⟨i, hi⟩ then e.digit.get else g[i] := this
        rw [this]
        split
        · rename_i he
          rw [← h2]
          exact congrArg (fun c : Fin 81 => g[c]) he
        · rfl
      rw [hset, hdl]
      exact h1
    · intro gh hs
      rw [hdl]
      exact hsem gh hs
  · rw [hg] at h2
    left
    refine ⟨Or.inl h2, { s1.pushed e (.nakedSingles e) with deductions := s1.deductions }, ?_, ?_, ?_⟩
    · rw [e2, Res.ok_bind]
      show Res.ok _ = _
      have hd : (s1.pushed e (.nakedSingles e)).deductions.dropLast = s1.deductions := List.dropLast_concat
      rw [hd]
    · have hw := pushed_w h1.w (e := e) (by rw [hg]; exact h2) (.nakedSingles e)
      refine ⟨⟨hw.fits, hw.fitsH, hw.fitsP, hw.count, hw.next, hw.nextLe, hw.elimLe, hw.hpElimLe, hw.hpNextLe, hw.budget,
        hw.range, hw.last, hw.done, hw.hpEx⟩, ?_, h1.none, ?_, h1.elim, ?_, ?_⟩
      · intro c hc
        rw [get_set_fin] at hc ⊢
        split
        · exact ⟨_, rfl⟩
        · rename_i hne
          rw [if_neg hne] at hc
          exact h.wf c hc
      · intro c d
        show _ ∈ s1.deduced ++ [e] ↔ _
        rw [List.mem_append, h1.ded, get_set_fin, List.mem_singleton]
        constructor
        · rintro (h3 | h3)
          · split
            · rename_i he
              subst he
              rw [h2] at h3
              exact absurd h3.symm (Digit.get_ne_zero d)
            · exact h3
          · subst h3
            rw [if_pos rfl]
        · intro h3
          split at h3
          · rename_i he
            subst he
            rw [← Digit.get_inj h3]
            exact Or.inr rfl
          · exact Or.inl h3
      · show (s1.deduced ++ [e]).length = _
        rw [List.length_append, h1.len, clueCount_set h2 (Digit.get_ne_zero _)]
        rfl
      · intro c _
        show (s1.grid.set e.cell.val e.digit.get e.cell.isLt)[c] = _
        rw [hg]
    · intro gh hs
      have hs := hsem gh hs
      have hp := hs.gh.pushed e (.nakedSingles e)
      exact ⟨⟨hp.fits, hp.empty, hp.count, hp.house, hp.range, hp.distinct, hp.src, hp.lower, hp.nextLe, hp.first⟩,
        hs.closed.pushed hs.gh.nextLe e (.nakedSingles e), hs.fresh, hs.gsrc.pushed e (.nakedSingles e), hs.pend⟩
  · rw [hg] at h2 h3
    right
    refine ⟨h2, h3, s1, ?_, h1, hsem⟩
    rw [e2, Res.ok_bind]
    rfl

theorem Consistent.of_set {g : Grid} {X : Fin 81 → Digit → Prop} {e : Candidate}
    (h0 : g[e.cell] = 0 ∨ g[e.cell] = e.digit.get) (h : Consistent (g.set e.cell e.digit.get) X) : Consistent g X := by
  have hle : ∀ c : Fin 81, g[c] ≠ 0 → (g.set e.cell.val e.digit.get e.cell.isLt)[c] = g[c] := by
    intro c hc
    rw [get_set_fin]
    split
    · rename_i he
      subst he
      rcases h0 with h0 | h0
      · exact absurd h0 hc
      · exact h0.symm
    · rfl
  refine ⟨?_, ?_, ?_⟩
  · intro c c' hne hs hc heq
    have hc' : g[c'] ≠ 0 := by rw [← heq]; exact hc
    refine h.distinct c c' hne hs (by rw [hle c hc]; exact hc) ?_
    rw [hle c hc, hle c' hc', heq]
  · intro c d hd
    exact h.allowed c d (by rw [hle c (by rw [hd]; exact Digit.get_ne_zero _), hd])
  · intro c hc
    by_cases he : e.cell = c
    · subst he
      refine ⟨e.digit, hc, h.allowed e.cell e.digit (by rw [get_set_fin, if_pos rfl]), ?_⟩
      intro c' hne hs hg
      have hc' : g[c'] ≠ 0 := by rw [hg]; exact Digit.get_ne_zero _
      refine h.distinct c' e.cell hne hs (by rw [hle c' hc']; exact hc') ?_
      rw [hle c' hc', hg, get_set_fin, if_pos rfl]
    · obtain ⟨d, _, h2, h3⟩ := h.open_ c (by rw [get_set_fin, if_neg he]; exact hc)
      refine ⟨d, hc, h2, ?_⟩
      intro c' hne hs hg
      exact h3 c' hne hs (by rw [hle c' (by rw [hg]; exact Digit.get_ne_zero _), hg])

/-- Every use of the methods before `solve` keeps the invariant; and the caches have their meaning unless `cell_state` was
called in an inconsistent state. -/
theorem Reaches.inv {looked : Bool} {s : Solver} {g : Grid} {X : Fin 81 → Digit → Prop} (h : Reaches looked s g X) :
    Inv s g X ∧ (looked = false ∨ Consistent g X → ∃ gh, Sem s gh) := by
  induction h with
  | @sudoku g s hg he =>
    obtain ⟨s', e, h1, h2⟩ := fromSudoku_spec hg
    rw [e] at he
    cases he
    exact ⟨h1, fun _ => ⟨_, h2⟩⟩
  | @gridState state s he =>
    obtain ⟨s', e, h1, h2⟩ := fromGridState_spec state
    rw [e] at he
    cases he
    exact ⟨h1, fun _ => ⟨_, h2⟩⟩
  | toSudoku _ ih =>
    exact ⟨ih.1.updateGrid.1, fun hc => by
      obtain ⟨gh, hs⟩ := ih.2 hc
      exact ⟨gh, hs.updateGrid ih.1⟩⟩
  | @cellState looked s s' g X fuel c r _ hf he ih =>
    obtain ⟨s1, r1, e, _, l1, _, _, l4⟩ := cellState_ok ih.1 hf c
    rw [e] at he
    cases he
    refine ⟨l1, ?_⟩
    rintro (hc | hc)
    · cases hc
    · obtain ⟨gh, hs⟩ := ih.2 (Or.inr hc)
      obtain ⟨gh', hs'⟩ := l4 hc gh hs
      exact ⟨gh', hs'.toSem⟩
  | @insertOk looked s s' g X e _ he ih =>
    rcases insert_spec ih.1 e with ⟨h0, s1, e1, h1, h2⟩ | ⟨_, _, s1, e1, _⟩
    · rw [e1] at he
      cases he
      refine ⟨h1, fun hc => ?_⟩
      obtain ⟨gh, hs⟩ := ih.2 (hc.imp id (fun hc => hc.of_set h0))
      exact ⟨gh, h2 gh hs⟩
    · rw [e1] at he; cases he
  | @insertErr looked s s' g X e _ he ih =>
    rcases insert_spec ih.1 e with ⟨_, s1, e1, _⟩ | ⟨_, _, s1, e1, h1, h2⟩
    · rw [e1] at he; cases he
    · rw [e1] at he
      cases he
      refine ⟨h1, fun hc => ?_⟩
      obtain ⟨gh, hs⟩ := ih.2 hc
      exact ⟨gh, h2 gh hs⟩

/-! ## Looking at a reachable solver -/

theorem state_covering {s : Solver} {g : Grid} {X : Fin 81 → Digit → Prop} (h : Inv s g X) (hg : s.grid = g) {gh : Grid}
    (hs : Gh s gh) (c : Fin 81) : ∃ r, s.stateOf c = .ok r ∧ Covering g X c r := by
  rcases stateOf_spec h hg c with ⟨h0, e⟩ | ⟨d, h0, e⟩
  · exact ⟨_, e, h0, fun d hd => mem_elems.mpr (hs.possible h hd)⟩
  · exact ⟨_, e, h0⟩

theorem state_faithful {s : Solver} {g : Grid} {X : Fin 81 → Digit → Prop} (h : Inv s g X) (hg : s.grid = g)
    (hc : Consistent g X) {gh : Grid} (hs : Settled s gh) (c : Fin 81) : ∃ r, s.stateOf c = .ok r ∧ Faithful g X c r := by
  rcases stateOf_spec h hg c with ⟨h0, e⟩ | ⟨d, h0, e⟩
  · refine ⟨_, e, h0, fun i => ?_⟩
    rw [mem_elems]
    constructor
    · intro hi
      have h9 := h.w.fits c i hi
      exact ⟨⟨i, h9⟩, rfl, (Settled.possible h hc hs c ⟨i, h9⟩).mp hi⟩
    · rintro ⟨d, rfl, hd⟩
      exact (Settled.possible h hc hs c d).mpr hd
  · exact ⟨_, e, h0⟩

/-- `grid_state` asks for the state of each cell of the updated solver. -/
theorem gridState_ok {s s1 : Solver} {ok : Bool} {fuel : Nat} (hu : s.updateGrid.update fuel false false = .ok (s1, ok))
    {P : Fin 81 → CellState → Prop} (h : ∀ c, ∃ r, s1.stateOf c = .ok r ∧ P c r) :
    ∃ l, s.gridState fuel = .ok l ∧ ∃ hl : l.length = 81, ∀ c : Fin 81, P c (l[c.val]'(by omega)) := by
  choose f hf using h
  refine ⟨(List.finRange 81).map f, ?_, by simp, fun c => ?_⟩
  · unfold Solver.gridState
    rw [hu, Res.ok_bind]
    exact Res.mapM_ok s1.stateOf f _ (fun c _ => (hf c).1)
  · have : ((List.finRange 81).map f)[c.val]'(by simp) = f c := by simp
    rw [this]
    exact (hf c).2

theorem elems_inj {w : Nat} {a b : BitVec w} (h : ∀ i, i ∈ elems a ↔ i ∈ elems b) : a = b := by
  apply BitVec.eq_of_getLsbD_eq
  intro i _
  rw [Bool.eq_iff_iff, ← mem_elems, ← mem_elems]
  exact h i

theorem Faithful.unique {g : Grid} {X X' : Fin 81 → Digit → Prop} (hX : ∀ c d, Possible g X c d ↔ Possible g X' c d)
    {c : Fin 81} {r r' : CellState} (h : Faithful g X c r) (h' : Faithful g X' c r') : r = r' := by
  cases r with
  | digit d =>
    cases r' with
    | digit d' => rw [Digit.get_inj (Eq.trans (Eq.symm h) h')]
    | candidates cs => exact absurd (Eq.trans (Eq.symm h) h'.1) (Digit.get_ne_zero d)
  | candidates cs =>
    cases r' with
    | digit d' => exact absurd (Eq.trans (Eq.symm h') h.1) (Digit.get_ne_zero d')
    | candidates cs' =>
      congr 1
      apply elems_inj
      intro i
      rw [h.2, h'.2]
      exact exists_congr fun d => and_congr_right fun _ => hX c d

/-- A grid state that shows the digits and possible digits. -/
theorem Faithful.carry {g : Grid} {X : Fin 81 → Digit → Prop} (hc : Consistent g X) {state : Vector CellState 81}
    (h : ∀ c : Fin 81, Faithful g X c state[c]) : digitsOf state = g ∧ Consistent g (excludedBy state) ∧
      (∀ c d, Possible g X c d ↔ Possible g (excludedBy state) c d) ∧
      ∀ t, SolutionOf g (excludedBy state) t ↔ SolutionOf g X t := by
  have hex : ∀ c d, excludedBy state c d ↔ g[c] = 0 ∧ ¬ Possible g X c d := by
    intro c d
    have hc := h c
    unfold excludedBy
    generalize state[c] = r at hc
    cases r with
    | digit d' =>
      refine ⟨fun h => h.elim, fun h => ?_⟩
      exact absurd (Eq.trans (Eq.symm hc) h.1) (Digit.get_ne_zero d')
    | candidates cs =>
      obtain ⟨h0, h1⟩ := hc
      show d.val ∉ elems cs ↔ _
      rw [h1]
      constructor
      · exact fun hn => ⟨h0, fun hp => hn ⟨d, rfl, hp⟩⟩
      · rintro ⟨-, hn⟩ ⟨d', he, hp⟩
        exact hn (Fin.ext he ▸ hp)
  have hposs : ∀ c d, Possible g X c d ↔ Possible g (excludedBy state) c d := by
    intro c d
    constructor
    · intro hp
      exact ⟨hp.1, fun hx => ((hex c d).mp hx).2 hp, hp.2.2⟩
    · intro hp
      by_contra hn
      exact hp.2.1 ((hex c d).mpr ⟨hp.1, hn⟩)
  refine ⟨?_, ⟨hc.distinct, ?_, ?_⟩, hposs, ?_⟩
  · have key : ∀ c : Fin 81, (digitsOf state)[c] = g[c] := by
      intro c
      have hc := h c
      have e : (digitsOf state)[c] = (match state[c] with | .digit d => d.get | .candidates _ => 0) := by
        unfold digitsOf
        exact Vector.getElem_map ..
      rw [e]
      generalize state[c] = r at hc
      cases r with
      | digit d => exact Eq.symm hc
      | candidates cs => exact hc.1.symm
    exact Vector.ext fun i hi => key ⟨i, hi⟩
  · intro c d hd hx
    exact absurd (hd.symm.trans ((hex c d).mp hx).1) (Digit.get_ne_zero d)
  · intro c h0
    obtain ⟨d, hd⟩ := hc.open_ c h0
    exact ⟨d, (hposs c d).mp hd⟩
  · intro t
    refine and_congr_right fun ht => ⟨fun hx c d hX hd => ?_, fun hx c d hX hd => ?_⟩
    · by_cases h0 : g[c] = 0
      · exact hx c d ((hex c d).mpr ⟨h0, fun hp => hp.2.1 hX⟩) hd
      · exact hc.allowed c d (by rw [← ht.2 c h0]; exact hd) hX
    · obtain ⟨h0, hn⟩ := (hex c d).mp hX
      apply hn
      refine ⟨h0, fun hX' => hx c d hX' hd, fun c' hne hs hc' => ?_⟩
      have := ht.2 c' (by rw [hc']; exact Digit.get_ne_zero d)
      exact ht.1.2 c' c hne hs (by rw [this, hc', hd])

end Verif.Strat
