import Verif.Proofs.StratComplete
import Verif.Proofs.StratResult
import Verif.Spec.Remaining

/-! # The strategy solver: giving up only when nothing is left to find -/
namespace Verif.Strat

open Bitset Generator

/-- The strategy has nothing to find. -/
def Idle (st : Strategy) (cand : Fin 81 → Digit → Prop) : Prop := ∀ d, Pattern.Matches cand st d → ¬ Searched cand d

/-- The state after updating the caches without looking for naked singles. -/
theorem update_settled {fuel : Nat} (hf : 1000 ≤ fuel) {s s1 : Solver} (h : W 0 s) {g : Grid} (hs : Sem s g) {t : Grid}
    (ht : Solved t) (ha : Agree t s) (he : s.update fuel false true = .ok (s1, true)) :
    ∃ g1, Settled s1 g1 ∧ Agree t s1 ∧ s1.deduced = s.deduced ∧ s1.eliminated = s.eliminated ∧ s1.hp = s.hp := by
  have hu := update_step (sts := []) (fn := false) (fun h => by cases h) hf h
  rw [he] at hu
  obtain ⟨h1, h2⟩ := hu
  obtain ⟨h3, h4⟩ := h2 rfl
  obtain ⟨r1, g1, _, sem1⟩ := h1.sem g hs
  obtain ⟨ext, x1, _, x3⟩ := h3.ded
  rw [x3 rfl, List.append_nil] at x1
  exact ⟨g1, ⟨h4, sem1 rfl⟩, r1.pres t ht ha, x1, h3.elim, h3.hp⟩

theorem andThen_ok {x : Res (Solver × Bool)} {f : Solver → Res (Solver × Bool)} {s' : Solver}
    (h : andThen x f = .ok (s', true)) : ∃ s1, x = .ok (s1, true) ∧ f s1 = .ok (s', true) := by
  unfold andThen at h
  obtain ⟨⟨s1, ok⟩, h1, h2⟩ := bind_ok h
  cases ok
  · cases h2
  · exact ⟨s1, h1, h2⟩

/-- A search after an update that eliminated no candidate of the kind `Sel`. -/
theorem search_idle {fuel : Nat} (hf : 1000 ≤ fuel) {s s' : Solver} (h : W 0 s) {g : Grid} (hs : Sem s g) {t : Grid}
    (ht : Solved t) (ha : Agree t s) {Sel : Candidate → Prop} {f : Solver → Res (Solver × Bool)} {P : Prop}
    (he : andThen (s.update fuel false true) (fun s1 => do
      let (s2, _) ← f s1
      .ok (s2, true)) = .ok (s', true)) (hl : Calm Sel s s')
    (hq : ∀ s1 g1, Settled s1 g1 → Agree t s1 → Cands s1.cp = CandL s.deduced s.eliminated → s1.hp = s.hp →
      s1.deduced = s.deduced → s1.eliminated = s.eliminated → ∃ F, f s1 = F s1 ∧ Quiet Sel F P) : P := by
  obtain ⟨s1, h1, h2⟩ := andThen_ok he
  obtain ⟨g1, hset, ha1, d1, d2, d3⟩ := update_settled hf h hs ht ha h1
  obtain ⟨⟨s2, b⟩, h3, h4⟩ := bind_ok h2
  cases h4
  obtain ⟨F, e, hF⟩ := hq s1 g1 hset ha1 (by rw [hset.cands ht ha1, d1, d2]) d3 d1 d2
  rw [e] at h3
  exact ((hF s1 _ h3).2 (by unfold Calm; rw [d2]; exact hl)).2

/-- A house with all digits entered has no possible digits. -/
theorem Settled.hfull {s : Solver} {g : Grid} (h : Settled s g) (x : Fin 27) (hx : isFull 9 s.hs[x] = true) (p : Fin 9) :
    s.cp[Pos.houseCellAt x p] = 0#16 := by
  have hx : s.hs[x] = ALL 16 9 := by
    unfold isFull at hx
    simpa using hx
  rw [eq_zero_iff]
  intro i
  by_contra hb
  rw [Bool.not_eq_false] at hb
  have hi := h.w.fits _ i hb
  have hd : s.hs[x].getLsbD (⟨i, hi⟩ : Digit).val = true := by
    rw [hx]
    exact (bit_all (by omega) (by omega) i).mpr hi
  obtain ⟨c, hc, hg⟩ := (h.gh.house x ⟨i, hi⟩).mp hd
  obtain ⟨q, rfl, _⟩ := inHouse_hca ((inHouse_iff x c).mp hc)
  by_cases hne : Pos.houseCellAt x q = Pos.houseCellAt x p
  · have h0 := h.gh.empty _ (by rw [hg]; exact Digit.get_ne_zero _)
    have : s.cp[Pos.houseCellAt x p] = 0#16 := (congrArg (fun c : Fin 81 => s.cp[c]) hne).symm.trans h0
    rw [this] at hb
    simp at hb
  · have := h.fresh _ (Pos.houseCellAt x p) ⟨i, hi⟩ hne (sameHouse_of_hca _ _ _) hg
    rw [hb] at this
    cases this

/-! ## Naked singles -/

theorem nakedLoop_quiet {cp : Vector DigitSet 81} (hf : ∀ c : Fin 81, Fits 9 cp[c]) (stop : Bool) :
    ∀ (cells : List (Fin 81)) (s : Solver) (r : Solver × Bool), nakedSinglesLoop cp stop cells s = .ok r →
      s.deduced.length ≤ r.1.deduced.length ∧ (r.1.deduced.length = s.deduced.length →
        ∀ c ∈ cells, ∀ d : Digit, ¬ ∀ d' : Digit, cp[c].getLsbD d'.val = true ↔ d' = d) := by
  intro cells
  induction cells with
  | nil => intro s r he; cases he; exact ⟨Nat.le_refl _, fun _ c hc => by cases hc⟩
  | cons c cells ih =>
    intro s r he
    unfold nakedSinglesLoop at he
    have skip : (∀ d : Digit, ¬ ∀ j, cp[c].getLsbD j = true ↔ j = d.val) → nakedSinglesLoop cp stop cells s = .ok r →
        s.deduced.length ≤ r.1.deduced.length ∧ (r.1.deduced.length = s.deduced.length →
        ∀ c' ∈ c :: cells, ∀ d : Digit, ¬ ∀ d' : Digit, cp[c'].getLsbD d'.val = true ↔ d' = d) := by
      intro hn he
      obtain ⟨h1, h2⟩ := ih s r he
      refine ⟨h1, fun hl c' hc' d hd => ?_⟩
      rcases List.mem_cons.mp hc' with rfl | hc'
      · refine hn d fun j => ⟨fun hj => ?_, ?_⟩
        · have := (hd ⟨j, hf _ j hj⟩).mp hj
          exact congrArg Fin.val this
        · rintro rfl
          exact (hd d).mpr rfl
      · exact h2 hl c' hc' d hd
    rcases uniqueItem_spec (n := 9) (by omega) (by omega) (by omega) (hf c) with ⟨h0, e⟩ | ⟨d, hu, e⟩ | ⟨hm, e⟩
    · simp only [e, Res.ok_bind] at he
      refine skip (fun d hd => ?_) he
      have := (hd d.val).mpr rfl
      rw [h0] at this
      simp at this
    · simp only [e, Res.ok_bind] at he
      obtain ⟨⟨s1, ok⟩, h1, h2⟩ := bind_ok he
      have hlen : s.deduced.length < s1.deduced.length := by
        rcases push_cases { s with deduced := s.deduced ++ [⟨c, d⟩] } ⟨c, d⟩ (.nakedSingles ⟨c, d⟩) (Or.inl rfl)
          with ⟨_, e⟩ | ⟨_, e⟩ | ⟨_, _, e⟩
        · rw [e] at h1; cases h1; simp
        · rw [e] at h1; cases h1; simp [Solver.pushed]
        · rw [e] at h1; cases h1; simp
      dsimp only at h2
      split at h2
      · cases h2
        dsimp only
        exact ⟨by omega, fun hl => by omega⟩
      · split at h2
        · cases h2
          dsimp only
          exact ⟨by omega, fun hl => by omega⟩
        · obtain ⟨h3, _⟩ := ih s1 r h2
          exact ⟨by omega, fun hl => by omega⟩
    · simp only [e, Res.ok_bind] at he
      refine skip (fun d hd => ?_) he
      obtain ⟨i, j, hij, hi, hj⟩ := two_of_card hm
      rw [hd] at hi hj
      exact hij (hi.trans hj.symm)

theorem nakedSingles_idle {fuel : Nat} (hf : 1000 ≤ fuel) {s s' : Solver} (h : W 0 s) {g : Grid} (hs : Sem s g)
    {t : Grid} (ht : Solved t) (ha : Agree t s) (he : s.findNakedSingles fuel true = .ok (s', true))
    (hl : s'.deduced.length = s.deduced.length) : Idle .nakedSingles (CandL s.deduced s.eliminated) := by
  unfold Solver.findNakedSingles at he
  obtain ⟨s1, h1, h2⟩ := andThen_ok he
  obtain ⟨g1, hset, ha1, d1, d2, d3⟩ := update_settled hf h hs ht ha h1
  obtain ⟨s2, h3, h4⟩ := andThen_ok h2
  obtain ⟨q1, q2⟩ := nakedLoop_quiet hset.w.fits true _ _ _ h3
  have hw : W 0 s2 ∨ W 1 s2 := by
    have := nakedLoop_spec hset.toBase (List.finRange 81)
    rw [h3] at this
    rcases this with ⟨h5, _⟩ | ⟨c, d, _, ⟨_, h5⟩ | ⟨h0, h5⟩ | ⟨_, h5⟩⟩
    · have h5 : s2 = s1 := h5
      rw [h5]
      exact Or.inl hset.w
    · cases h5
      exact Or.inr (hset.w.push1 _)
    · cases h5
      exact Or.inr (pushed_w (e := ⟨c, d⟩) (hset.w.push1 ⟨c, d⟩) h0 (.nakedSingles ⟨c, d⟩))
    · cases h5
  have hm : s2.deduced.length ≤ s'.deduced.length := by
    rcases hw with hw | hw
    · have := update_w (k := 0) (by omega) false true (fuel := fuel) (by omega) s2 hw
      rw [h4] at this
      exact this.2.1.deduced_le
    · have := update_w (k := 1) (by omega) false true (fuel := fuel) (by omega) s2 hw
      rw [h4] at this
      exact this.2.1.deduced_le
  have d1' := congrArg List.length d1
  dsimp only at q1 q2
  have q2 := q2 (by omega)
  rw [← d1, ← d2, ← hset.cands ht ha1]
  intro d hd _
  cases d with
  | nakedSingles e => exact q2 e.cell (List.mem_finRange _) e.digit hd
  | _ => exact hd

/-! ## Hidden singles -/

theorem scan_multiple (cp : Vector DigitSet 81) (i : Nat) : ∀ (cells : List (Fin 81)) (acc : DigitSet × DigitSet), cells.Nodup →
    ((cells.map (fun c => cp[c])).foldl (fun acc p => (union acc.1 p, union acc.2 (inter acc.1 p))) acc).2.getLsbD i = true →
    acc.2.getLsbD i = true ∨ (acc.1.getLsbD i = true ∧ ∃ c ∈ cells, cp[c].getLsbD i = true) ∨
      ∃ c ∈ cells, ∃ c' ∈ cells, c ≠ c' ∧ cp[c].getLsbD i = true ∧ cp[c'].getLsbD i = true := by
  intro cells
  induction cells with
  | nil => intro acc _ h; exact Or.inl h
  | cons x xs ih =>
    intro acc hn h
    rw [List.nodup_cons] at hn
    rw [List.map_cons, List.foldl_cons] at h
    rcases ih _ hn.2 h with h1 | ⟨h1, c, hc, hb⟩ | ⟨c, hc, c', hc', h2⟩
    · rw [bit_union, Bool.or_eq_true, bit_inter, Bool.and_eq_true] at h1
      rcases h1 with h1 | ⟨h1, h2⟩
      · exact Or.inl h1
      · exact Or.inr (Or.inl ⟨h1, x, by simp, h2⟩)
    · rw [bit_union, Bool.or_eq_true] at h1
      rcases h1 with h1 | h1
      · exact Or.inr (Or.inl ⟨h1, c, by simp [hc], hb⟩)
      · refine Or.inr (Or.inr ⟨x, by simp, c, by simp [hc], ?_, h1, hb⟩)
        rintro rfl
        exact hn.1 hc
    · exact Or.inr (Or.inr ⟨c, by simp [hc], c', by simp [hc'], h2⟩)

/-- A push of a found hidden single. -/
theorem push_grow {s : Solver} {e : Candidate} {x : Pos.HouseType} {r : Solver × Bool}
    (h : s.pushNewCandidate e (.hiddenSingles e x) = .ok r) : r.1.eliminated = s.eliminated ∧
      s.deduced.length ≤ r.1.deduced.length ∧ (s.grid[e.cell] = 0 → s.deduced.length < r.1.deduced.length) := by
  rcases push_cases s e (.hiddenSingles e x) (Or.inr ⟨x, rfl⟩) with ⟨h1, e1⟩ | ⟨h1, e1⟩ | ⟨h1, _, e1⟩
  · rw [e1] at h; cases h
    refine ⟨rfl, Nat.le_refl _, fun h0 => absurd (h1.symm.trans h0) (Digit.get_ne_zero _)⟩
  · rw [e1] at h; cases h
    refine ⟨rfl, ?_, fun _ => ?_⟩ <;> simp [Solver.pushed]
  · rw [e1] at h; cases h
    exact ⟨rfl, Nat.le_refl _, fun h0 => absurd h0 h1⟩

theorem hiddenCells_quiet {cp : Vector DigitSet 81} (hf : ∀ c : Fin 81, Fits 9 cp[c]) (stop : Bool) (house : Fin 27) :
    ∀ (cells : List (Fin 81)) (singles : DigitSet) (s : Solver) (r : Solver × Option Bool),
      hiddenSinglesCells cp stop house cells singles s = .ok r →
      r.1.eliminated = s.eliminated ∧ s.deduced.length ≤ r.1.deduced.length ∧
      ((∀ c : Fin 81, cp[c] ≠ 0#16 → s.grid[c] = 0) → r.2 ≠ none → r.1.deduced.length = s.deduced.length →
        r = (s, some false) ∧ ∀ c ∈ cells, ∀ i, singles.getLsbD i = true → cp[c].getLsbD i = false) := by
  intro cells
  induction cells with
  | nil =>
    intro singles s r he
    cases he
    exact ⟨rfl, Nat.le_refl _, fun _ _ _ => ⟨rfl, fun c hc => by cases hc⟩⟩
  | cons c cells ih =>
    intro singles s r he
    unfold hiddenSinglesCells at he
    rcases uniqueItem_spec (n := 9) (by omega) (by omega) (by omega) ((hf c).inter_left (b := singles))
      with ⟨h0, e⟩ | ⟨d, hu, e⟩ | ⟨hm, e⟩
    · simp only [e, Res.ok_bind] at he
      obtain ⟨h1, h2, h3⟩ := ih singles s r he
      refine ⟨h1, h2, fun hz hr hl => ?_⟩
      obtain ⟨h4, h5⟩ := h3 hz hr hl
      refine ⟨h4, fun c' hc' i hi => ?_⟩
      rcases List.mem_cons.mp hc' with rfl | hc'
      · have := eq_zero_iff.mp h0 i
        rw [bit_inter, hi, Bool.and_true] at this
        exact this
      · exact h5 c' hc' i hi
    · simp only [e, Res.ok_bind] at he
      obtain ⟨⟨s1, ok⟩, h1, h2⟩ := bind_ok he
      obtain ⟨p1, p2, p3⟩ := push_grow h1
      dsimp only at p1 p2 p3 h2
      have hd := (hu d.val).mpr rfl
      rw [bit_inter, Bool.and_eq_true] at hd
      have hlt : (∀ c : Fin 81, cp[c] ≠ 0#16 → s.grid[c] = 0) → s.deduced.length < s1.deduced.length :=
        fun hz => p3 (hz c (ne_zero_iff.mpr ⟨_, hd.1⟩))
      split at h2
      · cases h2
        exact ⟨p1, p2, fun _ hr => absurd rfl hr⟩
      · split at h2
        · cases h2
          refine ⟨p1, p2, fun hz _ hl => ?_⟩
          have := hlt hz
          dsimp only at hl
          omega
        · split at h2
          · cases h2
            refine ⟨p1, p2, fun hz _ hl => ?_⟩
            have := hlt hz
            dsimp only at hl
            omega
          · obtain ⟨q1, q2, _⟩ := ih _ s1 r h2
            refine ⟨q1.trans p1, by omega, fun hz _ hl => ?_⟩
            have := hlt hz
            omega
    · simp only [e, Res.ok_bind] at he
      cases he
      exact ⟨rfl, Nat.le_refl _, fun _ hr => absurd rfl hr⟩

/-- No digit has exactly one place in the house. -/
def NoHidden (cp : Vector DigitSet 81) (house : Fin 27) : Prop := ∀ e, ¬ Pattern.HiddenSingle (Cands cp) e house.val

theorem hiddenLoop_quiet {cp : Vector DigitSet 81} {hs : Vector DigitSet 27} (hf : ∀ c : Fin 81, Fits 9 cp[c]) (stop : Bool) :
    ∀ (houses : List (Fin 27)) (s : Solver) (r : Solver × Bool), hiddenSinglesLoop cp hs stop houses s = .ok r →
      r.1.eliminated = s.eliminated ∧ s.deduced.length ≤ r.1.deduced.length ∧
      ((∀ c : Fin 81, cp[c] ≠ 0#16 → s.grid[c] = 0) → r.2 = true → r.1.deduced.length = s.deduced.length →
        ∀ x ∈ houses, NoHidden cp x) := by
  intro houses
  induction houses with
  | nil => intro s r he; cases he; exact ⟨rfl, Nat.le_refl _, fun _ _ _ c hc => by cases hc⟩
  | cons house houses ih =>
    intro s r he
    unfold hiddenSinglesLoop at he
    dsimp only at he
    have hdd : ({ s with lastHouse := if s.lastHouse < 27 then s.lastHouse + 1 else 0 } : Solver).deduced = s.deduced := rfl
    have hde : ({ s with lastHouse := if s.lastHouse < 27 then s.lastHouse + 1 else 0 } : Solver).eliminated =
      s.eliminated := rfl
    have hdg : ({ s with lastHouse := if s.lastHouse < 27 then s.lastHouse + 1 else 0 } : Solver).grid = s.grid := rfl
    generalize ({ s with lastHouse := if s.lastHouse < 27 then s.lastHouse + 1 else 0 } : Solver) = s2 at he hdd hde hdg
    rw [← hdd, ← hde, ← hdg]
    clear hdd hde hdg
    rw [items_eq (by omega) (by omega) (houseCells_fits house), Res.ok_bind] at he
    have hmem : ∀ c, c ∈ mems 81 (Pos.houseCells house) ↔ Pattern.InHouse house.val c := by
      intro c; rw [mem_mems, ← inHouse_iff]; exact houseCells_get house c
    obtain ⟨sc1, _⟩ := scanDigits_spec cp (mems 81 (Pos.houseCells house))
    have sc2 : ∀ i, (scanDigits ((mems 81 (Pos.houseCells house)).map (fun c => cp[c]))).2.getLsbD i = true →
        ∃ c ∈ mems 81 (Pos.houseCells house), ∃ c' ∈ mems 81 (Pos.houseCells house), c ≠ c' ∧
          cp[c].getLsbD i = true ∧ cp[c'].getLsbD i = true := by
      intro i hi
      rcases scan_multiple cp i _ _ (nodup_mems _) hi with h | ⟨h, _⟩ | h
      · rw [bit_none] at h; cases h
      · rw [bit_none] at h; cases h
      · exact h
    generalize scanDigits ((mems 81 (Pos.houseCells house)).map (fun c => cp[c])) = sc at sc1 sc2 he
    obtain ⟨unsolved, multiple⟩ := sc
    dsimp only at sc1 sc2 he
    have key : ∀ e, Pattern.HiddenSingle (Cands cp) e house.val → e.cell ∈ mems 81 (Pos.houseCells house) ∧
        (without unsolved multiple).getLsbD e.digit.val = true ∧ cp[e.cell].getLsbD e.digit.val = true := by
      rintro e ⟨h1, h2⟩
      have hb : cp[e.cell].getLsbD e.digit.val = true := (h2 e.cell h1).mpr rfl
      refine ⟨(hmem _).mpr h1, ?_, hb⟩
      rw [bit_without, Bool.and_eq_true, Bool.not_eq_true']
      refine ⟨(sc1 _).mpr ⟨e.cell, (hmem _).mpr h1, hb⟩, ?_⟩
      by_contra hm
      rw [Bool.not_eq_false] at hm
      obtain ⟨c, hc, c', hc', hne, b1, b2⟩ := sc2 _ hm
      exact hne (((h2 c ((hmem c).mp hc)).mp b1).trans ((h2 c' ((hmem c').mp hc')).mp b2).symm)
    split at he
    · cases he
      exact ⟨rfl, Nat.le_refl _, fun _ hr => by cases hr⟩
    · split at he
      · rename_i hem
        obtain ⟨h1, h2, h3⟩ := ih s2 r he
        refine ⟨h1, h2, fun hz hr hl x hx => ?_⟩
        rcases List.mem_cons.mp hx with rfl | hx
        · intro e hh
          have := (key e hh).2.1
          rw [(isEmpty_iff (by omega)).mp hem] at this
          simp at this
        · exact h3 hz hr hl x hx
      · obtain ⟨⟨s3, o⟩, h1, h2⟩ := bind_ok he
        obtain ⟨p1, p2, p3⟩ := hiddenCells_quiet hf stop house _ _ _ _ h1
        dsimp only at p1 p2 p3
        match o, h2, p3 with
        | none, h2, _ => cases h2; exact ⟨p1, p2, fun _ hr => by cases hr⟩
        | some true, h2, p3 =>
          cases h2
          refine ⟨p1, p2, fun hz _ hl => ?_⟩
          have := (p3 hz (by simp) hl).1
          cases this
        | some false, h2, p3 =>
          obtain ⟨q1, q2, q3⟩ := ih s3 r h2
          refine ⟨q1.trans p1, by omega, fun hz hr hl x hx => ?_⟩
          obtain ⟨e1, e2⟩ := p3 hz (by simp) (by omega)
          rcases List.mem_cons.mp hx with rfl | hx
          · intro e hh
            obtain ⟨k1, k2, k3⟩ := key e hh
            have := e2 _ k1 _ k2
            rw [k3] at this
            cases this
          · have e1 : s3 = s2 := congrArg Prod.fst e1
            subst e1
            exact q3 hz hr (by omega) x hx

theorem window_all : ∀ (n : Fin 28) (h : Fin 27), h ∈ ((List.finRange 27 ++ List.finRange 27).drop n.val).take 27 := by
  decide +kernel

theorem houseNr_lt (x : Pos.HouseType) : ∃ h : Fin 27, h.val = Pattern.houseNr x := by
  cases x with
  | row r => exact ⟨⟨r.val, by omega⟩, rfl⟩
  | col r => exact ⟨⟨9 + r.val, by omega⟩, rfl⟩
  | block r => exact ⟨⟨18 + r.val, by omega⟩, rfl⟩

theorem hiddenSingles_idle {fuel : Nat} (hf : 1000 ≤ fuel) {stop : Bool} {s s' : Solver} (h : W 0 s) {g : Grid} (hs : Sem s g)
    {t : Grid} (ht : Solved t) (ha : Agree t s) (he : s.findHiddenSingles fuel stop = .ok (s', true))
    (hl : s'.deduced.length = s.deduced.length) :
    s'.eliminated = s.eliminated ∧ Idle .hiddenSingles (CandL s.deduced s.eliminated) := by
  unfold Solver.findHiddenSingles at he
  obtain ⟨s1, h1, h2⟩ := andThen_ok he
  obtain ⟨g1, hset, ha1, d1, d2, d3⟩ := update_settled hf h hs ht ha h1
  obtain ⟨s2, h3, h4⟩ := andThen_ok h2
  obtain ⟨q0, q1, q2⟩ := hiddenLoop_quiet hset.w.fits stop _ _ _ h3
  have hw : W 0 s2 := by
    have := hiddenLoop_spec (sts := [.hiddenSingles]) (by simp) hset.toBase stop
      (((List.finRange 27 ++ List.finRange 27).drop s1.lastHouse).take 27) s1
      ⟨hset.w, Meas.refl _, rfl, fun _ h => Or.inl h, fun g hs => ⟨Run.refl _, hs⟩⟩
    rw [h3] at this
    exact this.1.w
  have hu := update_w (k := 0) (by omega) false true (fuel := fuel) (by omega) s2 hw
  rw [h4] at hu
  have hm : s2.deduced.length ≤ s'.deduced.length := hu.2.1.deduced_le
  have d1' := congrArg List.length d1
  dsimp only at q0 q1 q2
  have q2 := q2 (fun c hc => hset.grid_zero hc) rfl (by omega)
  refine ⟨hu.2.1.elim.trans (q0.trans d2), ?_⟩
  rw [← d1, ← d2, ← hset.cands ht ha1]
  intro d hd _
  cases d with
  | hiddenSingles e x =>
    obtain ⟨n, hn⟩ := houseNr_lt x
    have hlast : s1.lastHouse < 28 := by have := hset.w.last; omega
    have hd : Pattern.HiddenSingle (Cands s1.cp) e (Pattern.houseNr x) := hd
    rw [← hn] at hd
    exact q2 n (window_all ⟨s1.lastHouse, hlast⟩ n) e hd
  | _ => exact hd

/-! ## All strategies -/

/-- What a pass over the patterns of a strategy has missed: nothing of the kind `Sel`, if no candidate of this kind was
eliminated. -/
theorem deduce_calm {st : Strategy} {fuel : Nat} (hf : 1000 ≤ fuel) {stop isFirst : Bool} {Sel : Candidate → Prop}
    (hstop : stop = false ∨ ∀ e, Sel e) {s s' : Solver} (h : W 0 s)
    {g : Grid} (hs : Sem s g) {t : Grid} (ht : Solved t) (ha : Agree t s)
    (he : st.deduce fuel stop isFirst s = .ok (s', true)) (hl : Calm Sel s s') :
    ∀ d, Pattern.Matches (CandL s.deduced s.eliminated) st d → Searched (CandL s.deduced s.eliminated) d →
      ¬ Hit Sel (Pattern.removed d) := by
  have hsub : ∀ (size : UInt8), 0 < size.toNat → s.findNakedSubsets fuel size stop = .ok (s', true) →
      ∀ (x : Fin 27) p d l, Pattern.NakedSubset (CandL s.deduced s.eliminated) size.toNat x p d l → ¬ Hit Sel l := by
    intro size hz he
    refine search_idle hf h hs ht ha he hl fun s1 g1 hset ha1 hc _ _ _ => ?_
    rw [← hc]
    exact ⟨_, rfl, nakedSubsets_quiet hset.w.fits hset.hfull (hset.cpOK ht ha1) hz stop hstop⟩
  have hhid : ∀ (size : UInt8), 0 < size.toNat → s.findHiddenSubsets fuel size stop = .ok (s', true) →
      ∀ (x : Fin 27) p d l, Pattern.HiddenSubset (CandL s.deduced s.eliminated) size.toNat x p d l → ¬ Hit Sel l := by
    intro size hz he
    obtain ⟨s1, h1, h2⟩ := andThen_ok he
    obtain ⟨g1, hset, ha1, d1, d2, d3⟩ := update_settled hf h hs ht ha h1
    obtain ⟨s2, e, _, h6, h7, h9, _⟩ := updateHousePoss_step (sts := []) hset.w
    have h9 := h9 hset.toBase
    rw [e, Res.ok_bind] at h2
    obtain ⟨⟨s3, b⟩, h3, h4⟩ := bind_ok h2
    cases h4
    obtain ⟨r1, g2, _, sem2⟩ := h7.sem g1 hset.toSem
    have hset2 : Settled s2 g2 := ⟨h9, sem2 rfl⟩
    have ha2 := r1.pres t ht ha1
    obtain ⟨hp, hpE, hpN, e', _⟩ := updateHousePoss_w (k := 0) (by omega) hset.w
    rw [e] at e'
    have e' := Res.ok.inj e'
    have d4 : s2.deduced = s1.deduced := by rw [e']
    have d5 : s2.eliminated = s1.eliminated := by rw [e']
    have hq := hiddenSubsets_quiet hset2.w.fitsP (hset2.hpCp h6 ht ha2) hset2.hfull ht (hset2.hpOK ht ha2) hz stop hstop
    rw [← d1, ← d2, ← d4, ← d5, ← hset2.cands ht ha2]
    exact ((hq s2 _ h3).2 (by unfold Calm; rw [d5, d2]; exact hl)).2
  have hpre : ∃ s2 g2, s.updateHousePoss = .ok s2 ∧ W 0 s2 ∧ HpCurrent s2 ∧ Sem s2 g2 ∧ Agree t s2 ∧
      s2.deduced = s.deduced ∧ s2.eliminated = s.eliminated := by
    obtain ⟨s2, e, h5, h6, h7, _, _⟩ := updateHousePoss_step (sts := []) h
    obtain ⟨r1, g2, _, sem2⟩ := h7.sem g hs
    obtain ⟨hp, hpE, hpN, e', _⟩ := updateHousePoss_w (k := 0) (by omega) h
    rw [e] at e'
    have e' := Res.ok.inj e'
    exact ⟨s2, g2, e, h5, h6, sem2 rfl, r1.pres t ht ha, by rw [e'], by rw [e']⟩
  have hfish : ∀ (size : UInt8), 0 < size.toNat → s.findFish fuel size stop = .ok (s', true) →
      ∀ digit lines p l, Pattern.BasicFish (CandL s.deduced s.eliminated) size.toNat digit lines p l →
        Searched (CandL s.deduced s.eliminated) (.basicFish digit lines p l) → ¬ Hit Sel l := by
    intro size hz he
    obtain ⟨s2, g2, e, h5, h6, sem2, ha2, d1, d2⟩ := hpre
    unfold Solver.findFish at he
    rw [e, Res.ok_bind] at he
    rw [← d1, ← d2]
    refine search_idle hf h5 sem2 ht ha2 he (by unfold Calm; rw [d2]; exact hl) fun s1 g1 hset ha1 hc hhp d3 d4 => ?_
    have hcur : HpCurrent s1 := by
      intro x d p
      rw [hhp, d3, d4]
      exact h6 x d p
    rw [← hc]
    exact ⟨_, rfl, fish_quiet hset.w.fitsP (hset.hpCp hcur ht ha1) ht (hset.hpOK ht ha1) hz stop hstop⟩
  unfold Strategy.deduce at he
  cases st with
  | nakedSingles =>
    rintro d hd - ⟨e, he, -⟩
    cases d with
    | nakedSingles => cases he
    | _ => exact hd
  | hiddenSingles =>
    rintro d hd - ⟨e, he, -⟩
    cases d with
    | hiddenSingles => cases he
    | _ => exact hd
  | lockedCandidates =>
    have := search_idle hf h hs ht ha he hl fun s1 g1 hset ha1 hc _ _ _ =>
      ⟨_, rfl, (locked_quiet hset.w.fits stop hstop).mono (fun hq => show ∀ d,
          Pattern.Matches (CandL s.deduced s.eliminated) .lockedCandidates d → ¬ Hit Sel (Pattern.removed d) by
        rw [← hc]
        intro d hd
        cases d with
        | lockedCandidates d m isP l => exact hq d m isP l hd
        | _ => exact hd.elim)⟩
    exact fun d hd _ => this d hd
  | nakedPairs =>
    have := hsub 2 (by decide) he
    intro d hd hse
    cases d with
    | subsets x p d l => exact this x p d l hd
    | _ => exact hd.elim
  | nakedTriples =>
    have := hsub 3 (by decide) he
    intro d hd hse
    cases d with
    | subsets x p d l => exact this x p d l hd
    | _ => exact hd.elim
  | nakedQuads =>
    have := hsub 4 (by decide) he
    intro d hd hse
    cases d with
    | subsets x p d l => exact this x p d l hd
    | _ => exact hd.elim
  | hiddenPairs =>
    have := hhid 2 (by decide) he
    intro d hd hse
    cases d with
    | subsets x p d l => exact this x p d l hd
    | _ => exact hd.elim
  | hiddenTriples =>
    have := hhid 3 (by decide) he
    intro d hd hse
    cases d with
    | subsets x p d l => exact this x p d l hd
    | _ => exact hd.elim
  | hiddenQuads =>
    have := hhid 4 (by decide) he
    intro d hd hse
    cases d with
    | subsets x p d l => exact this x p d l hd
    | _ => exact hd.elim
  | xWing =>
    have := hfish 2 (by decide) he
    intro d hd hse
    cases d with
    | basicFish d lines p l => exact this d lines p l hd hse
    | _ => exact hd.elim
  | swordfish =>
    have := hfish 3 (by decide) he
    intro d hd hse
    cases d with
    | basicFish d lines p l => exact this d lines p l hd hse
    | _ => exact hd.elim
  | jellyfish =>
    have := hfish 4 (by decide) he
    intro d hd hse
    cases d with
    | basicFish d lines p l => exact this d lines p l hd hse
    | _ => exact hd.elim
  | xyWing =>
    have := search_idle hf h hs ht ha he hl fun s1 g1 hset ha1 hc _ _ _ =>
      ⟨_, rfl, (xyWing_quiet hset.w.fits stop hstop).mono (fun hq => show ∀ d,
          Pattern.Matches (CandL s.deduced s.eliminated) .xyWing d → Searched (CandL s.deduced s.eliminated) d →
          ¬ Hit Sel (Pattern.removed d) by
        rw [← hc]
        intro d hd hse
        cases d with
        | wing x y p l => exact hq x y p l hd hse
        | _ => exact hd.elim)⟩
    exact this
  | xyzWing =>
    have := search_idle hf h hs ht ha he hl fun s1 g1 hset ha1 hc _ _ _ =>
      ⟨_, rfl, (xyzWing_quiet hset.w.fits stop hstop).mono (fun hq => show ∀ d,
          Pattern.Matches (CandL s.deduced s.eliminated) .xyzWing d → Searched (CandL s.deduced s.eliminated) d →
          ¬ Hit Sel (Pattern.removed d) by
        rw [← hc]
        intro d hd hse
        cases d with
        | wing x y p l => exact hq x y p l hd hse
        | _ => exact hd.elim)⟩
    exact this
  | mutantSwordfish => intro d hd; cases d <;> exact hd.elim
  | mutantJellyfish => intro d hd; cases d <;> exact hd.elim
  | avoidableRectangles => intro d hd; cases d <;> exact hd.elim

/-- The patterns of the strategies that enter no digits exclude candidates. -/
theorem Matches.ne_nil {cand : Fin 81 → Digit → Prop} {st : Strategy} (h1 : st ≠ .nakedSingles) (h2 : st ≠ .hiddenSingles)
    {d : Deduction (List Candidate)} (h : Pattern.Matches cand st d) : Pattern.removed d ≠ [] := by
  cases st <;> cases d <;> first
    | exact absurd rfl h1
    | exact absurd rfl h2
    | exact h.elim
    | exact h.2.2.2.2.2.1
    | (obtain ⟨_, _, _, _, _, _, _, h, _⟩ := h; exact h)
    | (obtain ⟨_, _, _, _, _, _, _, _, _, _, _, _, _, _, _, _, h, _⟩ := h; exact h)
    | skip
  rename_i isP l
  cases isP
  · exact h.2.2.1
  · exact h.2.2.1

theorem deduce_idle {st : Strategy} {fuel : Nat} (hf : 1000 ≤ fuel) {stop isFirst : Bool} (hb : stop = !isFirst)
    (hnk : st = .nakedSingles → isFirst = false) {s s' : Solver} (h : W 0 s)
    {g : Grid} (hs : Sem s g) {t : Grid} (ht : Solved t) (ha : Agree t s)
    (he : st.deduce fuel stop isFirst s = .ok (s', true)) (hd : s'.deduced.length = s.deduced.length)
    (hl : s'.eliminated.length = s.eliminated.length) : Idle st (CandL s.deduced s.eliminated) := by
  by_cases h1 : st = .nakedSingles
  · subst h1
    have hi := hnk rfl
    subst hi
    subst hb
    unfold Strategy.deduce at he
    exact nakedSingles_idle hf h hs ht ha he hd
  · by_cases h2 : st = .hiddenSingles
    · subst h2
      unfold Strategy.deduce at he
      exact (hiddenSingles_idle hf h hs ht ha he hd).2
    · intro d hm hse
      obtain ⟨e, he'⟩ := List.exists_mem_of_ne_nil _ (Matches.ne_nil h1 h2 hm)
      exact deduce_calm (Sel := fun _ => True) hf (Or.inr fun _ => trivial) h hs ht ha he (Calm.of_length hl) d hm hse
        ⟨e, he', trivial⟩

/-! ## The loop -/

theorem Run.same {sts : List Strategy} {s s' : Solver} (h : Run sts s s') (h1 : s'.deduced.length ≤ s.deduced.length)
    (h2 : s'.eliminated.length ≤ s.eliminated.length) : s'.deduced = s.deduced ∧ s'.eliminated = s.eliminated := by
  obtain ⟨x, hx⟩ := h.ded
  obtain ⟨y, hy⟩ := h.elim
  have hx' := congrArg List.length hx
  have hy' := congrArg List.length hy
  rw [List.length_append] at hx' hy'
  have e1 : x = [] := List.length_eq_zero_iff.mp (by omega)
  have e2 : y = [] := List.length_eq_zero_iff.mp (by omega)
  rw [hx, hy, e1, e2]
  simp

theorem Run.mono {sts : List Strategy} {s s' : Solver} (h : Run sts s s') :
    s.deduced.length ≤ s'.deduced.length ∧ s.eliminated.length ≤ s'.eliminated.length := by
  obtain ⟨x, hx⟩ := h.ded
  obtain ⟨y, hy⟩ := h.elim
  rw [hx, hy, List.length_append, List.length_append]
  omega

theorem restLoop_idle {fuel : Nat} (hf : 1000 ≤ fuel) {t : Grid} (ht : Solved t) {n m : Nat} : ∀ (rest : List Strategy)
    (s s' : Solver) (g : Grid), W 0 s → Sem s g → Agree t s → n = s.deduced.length → m ≤ s.eliminated.length →
    s'.eliminated.length < 65536 → restLoop fuel n m rest s = .ok (s', false) →
    s'.deduced = s.deduced ∧ s'.eliminated = s.eliminated ∧ (rest ≠ [] → s.eliminated.length = m) ∧
      ∀ st ∈ rest, Idle st (CandL s.deduced s.eliminated) := by
  intro rest
  induction rest with
  | nil => intro s s' g _ _ _ _ _ _ he; cases he; exact ⟨rfl, rfl, fun h => absurd rfl h, fun st h => by cases h⟩
  | cons st rest ih =>
    intro s s' g h hs ha hn hm hl he
    unfold restLoop at he
    obtain ⟨⟨s1, ok⟩, h1, h2⟩ := bind_ok he
    have hav : st ≠ .avoidableRectangles := by
      rintro rfl
      cases h1
    have hst := deduce_step (sts := [st]) (by simp) hav hf (stop := true) (isFirst := false) rfl h
    rw [h1] at hst
    obtain ⟨r1, g1, _, sem1⟩ := hst.sem g hs
    cases ok
    · cases h2
      exact absurd ha (hst.nosol rfl hl g hs t ht)
    · simp only [Bool.not_true, Bool.false_eq_true, if_false] at h2
      split at h2
      · cases h2
      · rename_i hc
        rw [Bool.or_eq_true, decide_eq_true_eq, decide_eq_true_eq, not_or] at hc
        obtain ⟨m1, m2⟩ := r1.mono
        dsimp only at m1 m2
        obtain ⟨e1, e2⟩ := r1.same (by dsimp only; omega) (by dsimp only; omega)
        dsimp only at e1 e2
        have e1' := congrArg List.length e1
        have e2' := congrArg List.length e2
        obtain ⟨i1, i2, i3, i4⟩ := ih s1 s' g1 (hst.w rfl) (sem1 rfl) (r1.pres t ht ha) (by omega) (by omega) hl h2
        rw [e1, e2] at i4
        refine ⟨i1.trans e1, i2.trans e2, fun _ => by omega, fun st' hst' => ?_⟩
        rcases List.mem_cons.mp hst' with rfl | hst'
        · exact deduce_idle hf rfl (fun _ => rfl) h hs ht ha h1 e1' e2'
        · exact i4 st' hst'

theorem solveLoop_idle {first : Strategy} {rest : List Strategy} {fuel0 : Nat} (hf : 1000 ≤ fuel0) {t : Grid} (ht : Solved t) :
    ∀ (fuel : Nat) (s s' : Solver) (g : Grid), W 0 s → Sem s g → Agree t s → s'.eliminated.length < 65536 →
    s'.nSolved ≠ 81 → solveLoop fuel0 first rest fuel s = .ok s' →
    ∀ st, Exhausted first rest st → Idle st (CandL s'.deduced s'.eliminated) := by
  intro fuel
  induction fuel with
  | zero => intro s s' g _ _ _ _ _ he; cases he
  | succ fuel ih =>
    intro s s' g h hs ha hl hns he
    unfold solveLoop at he
    split at he
    · rename_i hsol
      cases he
      unfold Solver.isSolved at hsol
      exact absurd (by simpa using hsol) hns
    · dsimp only at he
      obtain ⟨⟨s1, ok⟩, h1, h2⟩ := bind_ok he
      have hav : first ≠ .avoidableRectangles := by
        rintro rfl
        cases h1
      have hst := deduce_step (sts := [first]) (by simp) hav hf (stop := false) (isFirst := true) rfl h
      rw [h1] at hst
      obtain ⟨r1, g1, _, sem1⟩ := hst.sem g hs
      cases ok
      · cases h2
        exact absurd ha (hst.nosol rfl hl g hs t ht)
      · simp only [Bool.not_true, Bool.false_eq_true, if_false] at h2
        have ha1 := r1.pres t ht ha
        split at h2
        · exact ih s1 s' g1 (hst.w rfl) (sem1 rfl) ha1 hl hns h2
        · rename_i hc
          obtain ⟨m1, m2⟩ := r1.mono
          dsimp only at m1 m2
          obtain ⟨⟨s2, again⟩, h3, h4⟩ := bind_ok h2
          cases again
          · cases h4
            obtain ⟨e1, e2, e3, e4⟩ := restLoop_idle hf ht rest s1 s2 g1 (hst.w rfl) (sem1 rfl) ha1 (n := s.deduced.length) (by omega) m2 hl h3
            rw [show (s2, false).1.deduced = _ from e1, show (s2, false).1.eliminated = _ from e2]
            rintro st (hr | ⟨rfl, hnk, hr⟩)
            · exact e4 st hr
            · have hel : s1.eliminated.length = s.eliminated.length := by
                rcases hr with hr | rfl
                · exact e3 hr
                · exact congrArg List.length (hiddenSingles_idle hf h hs ht ha h1 (by omega)).1
              obtain ⟨k1, k2⟩ := r1.same (by dsimp only; omega) (by dsimp only; omega)
              dsimp only at k1 k2
              rw [k1, k2]
              exact deduce_idle (stop := false) (isFirst := true) hf rfl (fun h => absurd h hnk) h hs ht ha h1 (by omega) (by omega)
          · -- another round
            have hrest : ∀ st ∈ usable rest, st ∈ rest ∧ st ≠ .avoidableRectangles :=
              fun st hst => ⟨usable_sub rest st hst, usable_ne rest st hst⟩
            have h5 := restLoop_step (sts := rest) hf s.deduced.length s.eliminated.length (usable rest) s1 hrest (hst.w rfl)
            rw [restLoop_usable h3] at h5
            obtain ⟨r2, g2, _, sem2⟩ := h5.1.sem g1 (sem1 rfl)
            exact ih s2 s' g2 (h5.1.w rfl) (sem2 rfl) (r2.pres t ht ha1) hl hns h4

/-- The candidates left are those the solver works with. -/
theorem left_eq {sts : List Strategy} {s s' : Solver} {g gh : Grid} {X : Fin 81 → Digit → Prop} (h : Inv s g X)
    (hs : Sem s gh) (hF : Final sts s s') {t : Grid} (ht : SolutionOf g X t) :
    Left s'.outcome X = CandL s'.deduced s'.eliminated := by
  obtain ⟨hrun, -⟩ := hF.sem gh hs
  obtain ⟨c1, c2, c3⟩ := solve_covers h hs hF
  have ha := hrun.pres t ht.1.1 (h.agree_of ht)
  have hlog := hrun.log s.deduced s.eliminated False (fun h => h.elim) (h.log sts _)
  have hgs := hrun.gsrc h.gsrc
  have hval : ∀ e ∈ s'.deduced, s'.outcome.1[e.cell] = e.digit.get := by
    intro e he
    rw [← outcome_agree ha e.cell (outcome_ne he), ha.ded e he]
  funext c d
  refine propext ⟨?_, ?_⟩
  · rintro ⟨h0, hx, hd, hr⟩
    refine ⟨?_, fun e he => ⟨?_, ?_⟩⟩
    · rintro ⟨c', d'⟩ he ⟨rfl, rfl⟩
      rcases c2 _ he with h1 | ⟨i, x, h1, h2⟩
      · exact hx h1
      · exact hr i x h1 h2
    · rintro rfl
      exact outcome_ne he h0
    · rintro ⟨rfl, hsh⟩
      exact hd e.cell hsh (hval e he)
  · rintro ⟨h1, h2⟩
    have hne : ∀ (c' : Fin 81) (d' : Digit), s'.outcome.1[c'] = d'.get → (⟨c', d'⟩ : Candidate) ∈ s'.deduced := by
      intro c' d' hc
      obtain ⟨d2, h3, h4⟩ := outcome_entry hgs (c := c') (by rw [hc]; exact Digit.get_ne_zero _)
      rw [hc] at h3
      rw [Digit.get_inj h3]
      exact h4
    refine ⟨?_, ?_, ?_, ?_⟩
    · by_contra h0
      obtain ⟨d2, _, h4⟩ := outcome_entry hgs h0
      exact (h2 _ h4).1 rfl
    · intro hx
      obtain ⟨y, hy⟩ := hrun.elim
      exact h1 ⟨c, d⟩ (by rw [hy]; exact List.mem_append_left _ ((h.elim c d).mpr hx)) ⟨rfl, rfl⟩
    · intro c' hsh hc
      exact (h2 _ (hne c' d hc)).2 ⟨rfl, hsh⟩
    · intro i x hx hm
      cases hi : s'.deductions[i]? with
      | none =>
        unfold Deductions.get at hx
        have hi : s'.outcome.2.deductions[i]? = none := hi
        rw [hi] at hx
        cases hx
      | some d0 =>
        obtain ⟨x', hx1, -, -, hx2⟩ := get_of_index hlog hi
        rw [hx1] at hx
        cases hx
        obtain ⟨rg, -, hrg⟩ := (hx2 _).mp hm
        exact h1 _ (List.mem_of_mem_take (List.mem_of_mem_drop hrg)) ⟨rfl, rfl⟩

theorem solve_idle {fuel : Nat} (hf : 1000 ≤ fuel) {first : Strategy} {rest : List Strategy} {s : Solver} {g gh : Grid}
    {X : Fin 81 → Digit → Prop} (h : Inv s g X) (hs : Sem s gh) {r : Grid × Deductions}
    (hr : s.solve fuel (first :: rest) = .ok (.error r)) (hl : r.2.eliminated.length < 65536) {t : Grid}
    (ht : SolutionOf g X t) : ∀ st, Exhausted first rest st → Idle st (Left r X) := by
  obtain ⟨s1, h1, h2, h3⟩ := solve_returned hf h.w hr
  unfold Solver.solve at hr
  obtain ⟨s', h4, h5⟩ := bind_ok hr
  have hrun := trySolve_spec (usable_ne (first :: rest)) hf h.w
  rw [trySolve_usable h4] at hrun
  dsimp only at h5
  split at h5
  · cases h5
  · rename_i hns
    cases h5
    rw [show (s'.updateGrid.grid, ({ deductions := s'.updateGrid.deductions, deduced := s'.updateGrid.deduced, eliminated := s'.updateGrid.eliminated } : Deductions)) = s'.outcome from rfl,
      left_eq h hs hrun.1 ht]
    refine solveLoop_idle hf ht.1.1 fuel s s' gh h.w hs (h.agree_of ht) hl ?_ h4
    intro h81
    apply hns
    unfold Solver.isSolved
    show (s'.nSolved == 81) = true
    rw [h81]
    rfl

/-- When `solve` gives up, the entered digits are all worked in. -/
theorem solveLoop_filled {first : Strategy} {rest : List Strategy} {fuel0 : Nat} (hf : 1000 ≤ fuel0) {t : Grid} (ht : Solved t) :
    ∀ (fuel : Nat) (s s' : Solver) (g : Grid), W 0 s → Sem s g → Agree t s → s'.eliminated.length < 65536 →
    s'.nSolved ≠ 81 → solveLoop fuel0 first rest fuel s = .ok s' → ∀ e ∈ s'.deduced, s'.cp[e.cell] = 0#16 := by
  intro fuel
  induction fuel with
  | zero => intro s s' g _ _ _ _ _ he; cases he
  | succ fuel ih =>
    intro s s' g h hs ha hl hns he
    unfold solveLoop at he
    split at he
    · rename_i hsol
      cases he
      unfold Solver.isSolved at hsol
      exact absurd (by simpa using hsol) hns
    · dsimp only at he
      obtain ⟨⟨s1, ok⟩, h1, h2⟩ := bind_ok he
      have hav : first ≠ .avoidableRectangles := by
        rintro rfl
        cases h1
      have hst := deduce_step (sts := [first]) (by simp) hav hf (stop := false) (isFirst := true) rfl h
      rw [h1] at hst
      obtain ⟨r1, g1, _, sem1⟩ := hst.sem g hs
      cases ok
      · cases h2
        exact absurd ha (hst.nosol rfl hl g hs t ht)
      · simp only [Bool.not_true, Bool.false_eq_true, if_false] at h2
        have ha1 := r1.pres t ht ha
        split at h2
        · exact ih s1 s' g1 (hst.w rfl) (sem1 rfl) ha1 hl hns h2
        · rename_i hc
          obtain ⟨m1, m2⟩ := r1.mono
          dsimp only at m1 m2
          obtain ⟨⟨s2, again⟩, h3, h4⟩ := bind_ok h2
          have hrest : ∀ st ∈ usable rest, st ∈ rest ∧ st ≠ .avoidableRectangles :=
            fun st hst => ⟨usable_sub rest st hst, usable_ne rest st hst⟩
          have h5 := restLoop_step (sts := rest) hf s.deduced.length s.eliminated.length (usable rest) s1 hrest (hst.w rfl)
          rw [restLoop_usable h3] at h5
          cases again
          · cases h4
            obtain ⟨e1, -, -, -⟩ := restLoop_idle hf ht rest s1 s2 g1 (hst.w rfl) (sem1 rfl) ha1 (n := s.deduced.length) (by omega) m2 hl h3
            intro e he
            have he : e ∈ s1.deduced := by rw [← e1]; exact he
            obtain ⟨ext, hext⟩ := r1.ded
            have hd : s1.deduced = s.deduced := by
              have hlen := congrArg List.length hext
              rw [List.length_append] at hlen
              dsimp only at hext hlen
              have : ext = [] := List.eq_nil_of_length_eq_zero (by omega)
              rw [hext, this, List.append_nil]
            have h0 : s1.cp[e.cell] = 0#16 := hst.filled rfl g hs e (by rw [← hd]; exact he)
            rw [eq_zero_iff]
            intro i
            by_contra hb
            have := h5.1.sub _ _ (by simpa using hb)
            rw [h0] at this
            simp at this
          · obtain ⟨r2, g2, _, sem2⟩ := h5.1.sem g1 (sem1 rfl)
            exact ih s2 s' g2 (h5.1.w rfl) (sem2 rfl) (r2.pres t ht ha1) hl hns h4

/-- When `solve` gives up, a cell is empty. -/
theorem solve_unfinished {fuel : Nat} (hf : 1000 ≤ fuel) {first : Strategy} {rest : List Strategy} {s : Solver} {g gh : Grid}
    {X : Fin 81 → Digit → Prop} (h : Inv s g X) (hs : Sem s gh) {r : Grid × Deductions}
    (hr : s.solve fuel (first :: rest) = .ok (.error r)) (hl : r.2.eliminated.length < 65536) {t : Grid}
    (ht : SolutionOf g X t) : ∃ c : Fin 81, r.1[c] = 0 := by
  unfold Solver.solve at hr
  obtain ⟨s', h4, h5⟩ := bind_ok hr
  have hrun := trySolve_spec (usable_ne (first :: rest)) hf h.w
  rw [trySolve_usable h4] at hrun
  dsimp only at h5
  split at h5
  · cases h5
  · rename_i hns
    cases h5
    have hns : s'.nSolved ≠ 81 := by
      intro h81
      apply hns
      unfold Solver.isSolved
      show (s'.nSolved == 81) = true
      rw [h81]
      rfl
    have hfill := solveLoop_filled hf ht.1.1 fuel s s' gh h.w hs (h.agree_of ht) hl hns h4
    obtain ⟨hr1, g', hg'⟩ := hrun.1.sem gh hs
    have ha := hr1.pres t ht.1.1 (h.agree_of ht)
    by_contra hcon
    push Not at hcon
    have hfull : ∀ c : Fin 81, g'[c] ≠ 0 := by
      intro c
      obtain ⟨d, -, hd⟩ := outcome_entry (hr1.gsrc h.gsrc) (hcon c)
      exact hg'.filledC (Cons.of_solved ht.1.1 ha) (hfill _ hd)
    refine hns ?_
    rw [hg'.count]
    unfold clueCount
    rw [(List.countP_eq_length (p := fun c : Fin 81 => decide (g'[c] ≠ 0)) (l := List.finRange 81)).mpr
      (fun c _ => decide_eq_true (hfull c))]
    simp

end Verif.Strat
