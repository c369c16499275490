import Verif.Proofs.StratNodup
import Verif.Proofs.Passes
import Verif.Spec.Moment

/-! # The strategy solver: which strategies had nothing to find when a deduction was made -/
namespace Verif.Strat

open Bitset Generator

/-! ## What one strategy adds to the list of deductions -/

/-- Deductions of the strategy `st` were added, with `one` at most one. -/
def Marks (one : Bool) (st : Strategy) (s s' : Solver) : Prop :=
  ∃ ds, s'.deductions = s.deductions ++ ds ∧ (one = true → ds.length ≤ 1) ∧
    ∀ d ∈ ds, Expl (fun d' => d'.strategy = .ok st) s'.eliminated d

variable {one : Bool} {st : Strategy}

theorem Marks.of_eq {s s' : Solver} (h : s'.deductions = s.deductions) : Marks one st s s' :=
  ⟨[], by rw [h, List.append_nil], fun _ => Nat.zero_le 1, by simp⟩

theorem Marks.before {s s1 s2 : Solver} (h : s1.deductions = s.deductions) (h' : Marks one st s1 s2) : Marks one st s s2 := by
  obtain ⟨ds, h1, h2⟩ := h'
  exact ⟨ds, by rw [h1, h], h2⟩

theorem Marks.after {s s1 s2 : Solver} (h : Marks one st s s1) (h1 : s2.deductions = s1.deductions)
    (h2 : s2.eliminated = s1.eliminated) : Marks one st s s2 := by
  obtain ⟨ds, a1, a2, a3⟩ := h
  exact ⟨ds, by rw [h1, a1], a2, by rw [h2]; exact a3⟩

theorem update_quiet {k : Nat} (hk : k ≤ 1) {fuel : Nat} (hf : 1000 ≤ fuel) {s : Solver} (h : W k s) {r : Solver × Bool}
    (he : s.update fuel false true = .ok r) : r.1.deductions = s.deductions ∧ r.1.eliminated = s.eliminated := by
  have hu := update_w (k := k) (by omega) false true (fuel := fuel) (by omega) s h
  rw [he] at hu
  obtain ⟨ext, _, h2, h3⟩ := hu.2.1.ded
  exact ⟨by rw [h2, h3 rfl, List.map_nil, List.append_nil], hu.2.1.elim⟩

theorem ext_marks {Q : Deduction (List Candidate) → Prop} (hQ : ∀ d, Q d → d.strategy = .ok st)
    {F : Solver → Res (Solver × Bool)} {s : Solver} {r : Solver × Bool} (hF : one = true → Once F) (he : F s = .ok r)
    (hx : Ext (NewElim s) Q s r.1) : Marks one st s r.1 := by
  obtain ⟨news, ds, e, hb⟩ := hx
  have e1 : r.1.eliminated = s.eliminated ++ news := congrArg Solver.eliminated e
  have e2 : r.1.deductions = s.deductions ++ ds := congrArg Solver.deductions e
  refine ⟨ds, e2, fun ho => ?_, fun d hd => by rw [e1]; exact (hb.expl d hd).mono hQ⟩
  obtain ⟨l, -, ⟨-, k⟩, -⟩ := hF ho s r he
  rcases k with ⟨-, k⟩ | ⟨d, k, -⟩
  · rw [e2] at k
    have : ds = [] := by simpa using k
    rw [this]
    exact Nat.zero_le 1
  · rw [e2] at k
    have : ds = [d] := List.append_cancel_left k
    rw [this]
    exact Nat.le_refl 1

theorem search_marks {fuel : Nat} (hf : 1000 ≤ fuel) {s : Solver} (h : W 0 s) {r : Solver × Bool}
    {f : Solver → Res (Solver × Bool)} (he : andThen (s.update fuel false true) (fun s1 => do
      let (s2, _) ← f s1
      .ok (s2, true)) = .ok r)
    (hs : ∀ s1, Base s1 → ∃ F Q, f s1 = F s1 ∧ (∀ d, Q d → d.strategy = .ok st) ∧ (one = true → Once F) ∧
      Res.Post (F s1) (fun r => Ext (NewElim s1) Q s1 r.1) False) : Marks one st s r.1 := by
  unfold andThen at he
  obtain ⟨⟨s1, ok⟩, h1, h2⟩ := bind_ok he
  have hu := update_step (sts := []) (fn := false) (fun h => by cases h) hf h
  rw [h1] at hu
  obtain ⟨q, -⟩ := update_quiet (by omega) hf h h1
  cases ok with
  | false => cases h2; exact Marks.of_eq q
  | true =>
    simp only [if_true] at h2
    obtain ⟨F, Q, e, hQ, hF, hp⟩ := hs s1 (hu.2 rfl).2
    rw [e] at h2
    obtain ⟨⟨s2, b'⟩, h3, h4⟩ := bind_ok h2
    cases h4
    rw [h3] at hp
    exact Marks.before q (ext_marks (r := (s2, b')) hQ hF h3 hp)

/-- Hidden singles were added. -/
def HidAdd (s s' : Solver) (ds : List RangeDeduction) : Prop :=
  s'.eliminated = s.eliminated ∧ s'.deductions = s.deductions ++ ds ∧ ∀ d ∈ ds, ∃ e x, d = .hiddenSingles e x

theorem HidAdd.refl (s : Solver) : HidAdd s s [] := ⟨rfl, by simp, by simp⟩

theorem HidAdd.trans {s s1 s2 : Solver} {ds ds' : List RangeDeduction} (h : HidAdd s s1 ds) (h' : HidAdd s1 s2 ds') :
    HidAdd s s2 (ds ++ ds') := by
  obtain ⟨a1, a2, a3⟩ := h
  obtain ⟨b1, b2, b3⟩ := h'
  refine ⟨b1.trans a1, by rw [b2, a2, List.append_assoc], fun d hd => ?_⟩
  rcases List.mem_append.mp hd with hd | hd
  · exact a3 d hd
  · exact b3 d hd

theorem hiddenCells_hid {cp : Vector DigitSet 81} (hf : ∀ c : Fin 81, Fits 9 cp[c]) {stop : Bool} {house : Fin 27} :
    ∀ (cells : List (Fin 81)) (singles : DigitSet) (s : Solver) (r : Solver × Option Bool),
    hiddenSinglesCells cp stop house cells singles s = .ok r →
    ∃ ds, HidAdd s r.1 ds ∧ (stop = true → ds.length ≤ 1 ∧ (r.2 = some false → ds = [])) := by
  intro cells
  induction cells with
  | nil => intro _ s r he; cases he; exact ⟨[], HidAdd.refl s, fun _ => ⟨Nat.zero_le 1, fun _ => rfl⟩⟩
  | cons cell cells ih =>
    intro singles s r he
    unfold hiddenSinglesCells at he
    rcases uniqueItem_spec (n := 9) (by omega) (by omega) (by omega) ((hf cell).inter_left (b := singles))
      with ⟨_, e⟩ | ⟨d, hu, e⟩ | ⟨_, e⟩
    · simp only [e, Res.ok_bind] at he
      exact ih singles s r he
    · simp only [e, Res.ok_bind] at he
      obtain ⟨⟨s1, ok⟩, h3, h4⟩ := bind_ok he
      have hp : ∃ ds, HidAdd s s1 ds ∧ ds.length ≤ 1 := by
        rcases push_cases s ⟨cell, d⟩ (.hiddenSingles ⟨cell, d⟩ (Pos.categorize house)) (Or.inr ⟨_, rfl⟩)
          with ⟨_, e⟩ | ⟨_, e⟩ | ⟨_, _, e⟩
        · rw [e] at h3
          cases h3
          exact ⟨[], HidAdd.refl s, Nat.zero_le 1⟩
        · rw [e] at h3
          cases h3
          exact ⟨[_], ⟨rfl, rfl, fun x hx => ⟨_, _, List.mem_singleton.mp hx⟩⟩, Nat.le_refl 1⟩
        · rw [e] at h3
          cases h3
          exact ⟨[], HidAdd.refl s, Nat.zero_le 1⟩
      obtain ⟨ds, hp, hl⟩ := hp
      dsimp only at h4
      split at h4
      · cases h4; exact ⟨ds, hp, fun _ => ⟨hl, fun h => by cases h⟩⟩
      · split at h4
        · cases h4; exact ⟨ds, hp, fun _ => ⟨hl, fun h => by cases h⟩⟩
        · rename_i hst
          split at h4
          · cases h4; exact ⟨ds, hp, fun h => absurd h hst⟩
          · obtain ⟨ds', h5, _⟩ := ih _ s1 r h4
            exact ⟨_, hp.trans h5, fun h => absurd h hst⟩
    · simp only [e, Res.ok_bind] at he
      cases he
      exact ⟨[], HidAdd.refl s, fun _ => ⟨Nat.zero_le 1, fun h => by cases h⟩⟩

theorem hiddenLoop_hid {cp : Vector DigitSet 81} (hf : ∀ c : Fin 81, Fits 9 cp[c]) {hs : Vector DigitSet 27} {stop : Bool} :
    ∀ (houses : List (Fin 27)) (s : Solver) (r : Solver × Bool), hiddenSinglesLoop cp hs stop houses s = .ok r →
      ∃ ds, HidAdd s r.1 ds ∧ (stop = true → ds.length ≤ 1) := by
  intro houses
  induction houses with
  | nil => intro s r he; cases he; exact ⟨[], HidAdd.refl s, fun _ => Nat.zero_le 1⟩
  | cons house houses ih =>
    intro s r he
    unfold hiddenSinglesLoop at he
    dsimp only at he
    have h0 : HidAdd s { s with lastHouse := if s.lastHouse < 27 then s.lastHouse + 1 else 0 } [] := ⟨rfl, by simp, by simp⟩
    obtain ⟨cells, _, h2⟩ := bind_ok he
    split at h2
    · cases h2; exact ⟨[], h0, fun _ => Nat.zero_le 1⟩
    · split at h2
      · obtain ⟨ds, h3, h4⟩ := ih _ r h2
        exact ⟨_, h0.trans h3, h4⟩
      · obtain ⟨⟨s1, v⟩, h3, h4⟩ := bind_ok h2
        obtain ⟨ds, h5, h6⟩ := hiddenCells_hid hf _ _ _ (s1, v) h3
        have h7 := h0.trans h5
        match v, h4 with
        | none, h4 => cases h4; exact ⟨_, h7, fun h => (h6 h).1⟩
        | some true, h4 => cases h4; exact ⟨_, h7, fun h => (h6 h).1⟩
        | some false, h4 =>
          obtain ⟨ds', h8, h9⟩ := ih s1 r h4
          refine ⟨_, h7.trans h8, fun h => ?_⟩
          rw [(h6 h).2 rfl]
          exact h9 h

theorem hiddenSingles_marks {fuel : Nat} (hf : 1000 ≤ fuel) {stop : Bool} {s : Solver} (h : W 0 s) {r : Solver × Bool}
    (he : s.findHiddenSingles fuel stop = .ok r) : Marks stop .hiddenSingles s r.1 := by
  unfold Solver.findHiddenSingles andThen at he
  obtain ⟨⟨s1, ok⟩, h1, h2⟩ := bind_ok he
  have hu := update_step (sts := []) (fn := false) (fun h => by cases h) hf h
  rw [h1] at hu
  obtain ⟨q, -⟩ := update_quiet (by omega) hf h h1
  cases ok with
  | false => cases h2; exact Marks.of_eq q
  | true =>
    simp only [if_true] at h2
    have hb : Base s1 := (hu.2 rfl).2
    obtain ⟨⟨s2, ok⟩, h3, h4⟩ := bind_ok h2
    obtain ⟨ds, ⟨_, h6, h7⟩, h8⟩ := hiddenLoop_hid hb.w.fits _ _ (s2, ok) h3
    have hm : Marks stop .hiddenSingles s s2 := Marks.before q ⟨ds, h6, h8, fun d hd => by
      obtain ⟨e, x, rfl⟩ := h7 d hd
      exact fun _ => ⟨_, rfl, rfl⟩⟩
    have hsp := hiddenLoop_spec (sts := [.hiddenSingles]) (by simp) hb stop
      (((List.finRange 27 ++ List.finRange 27).drop s1.lastHouse).take 27) s1
      ⟨hb.w, Meas.refl _, rfl, fun _ h => Or.inl h, fun g hs => ⟨Run.refl _, hs⟩⟩
    rw [h3] at hsp
    cases ok with
    | false => cases h4; exact hm
    | true =>
      simp only [if_true] at h4
      obtain ⟨q1, q2⟩ := update_quiet (by omega) hf hsp.1.w h4
      exact hm.after q1 q2

theorem nakedSingles_marks {fuel : Nat} (hf : 1000 ≤ fuel) {s : Solver} (h : W 0 s) {r : Solver × Bool}
    (he : s.findNakedSingles fuel true = .ok r) : Marks one .nakedSingles s r.1 := by
  unfold Solver.findNakedSingles andThen at he
  obtain ⟨⟨s1, ok⟩, h1, h2⟩ := bind_ok he
  have hu := update_step (sts := []) (fn := false) (fun h => by cases h) hf h
  rw [h1] at hu
  obtain ⟨q, -⟩ := update_quiet (by omega) hf h h1
  cases ok with
  | false => cases h2; exact Marks.of_eq q
  | true =>
    simp only [if_true] at h2
    have hb : Base s1 := (hu.2 rfl).2
    obtain ⟨⟨s2, ok⟩, h3, h4⟩ := bind_ok h2
    have hsp := nakedLoop_spec hb (List.finRange 81)
    rw [h3] at hsp
    have last : ∀ {k : Nat} (_ : k ≤ 1), W k s2 → s2.update fuel false true = .ok r → Marks one .nakedSingles s s2 →
        Marks one .nakedSingles s r.1 := by
      intro k hk hw hup hm
      obtain ⟨q1, q2⟩ := update_quiet hk hf hw hup
      exact hm.after q1 q2
    rcases hsp with ⟨h5, h6⟩ | ⟨c, d, _, ⟨_, h5⟩ | ⟨h0, h5⟩ | ⟨_, h5⟩⟩
    · have h5 : s2 = s1 := h5
      have h6 : ok = true := h6
      subst h6 h5
      simp only [if_true] at h4
      exact last (Nat.zero_le 1) hb.w h4 (Marks.of_eq q)
    · cases h5
      simp only [if_true] at h4
      exact last (Nat.le_refl 1) (hb.w.push1 _) h4 (Marks.of_eq q)
    · cases h5
      simp only [if_true] at h4
      refine last (Nat.le_refl 1) (pushed_w (e := ⟨c, d⟩) (hb.w.push1 ⟨c, d⟩) h0 (.nakedSingles ⟨c, d⟩)) h4
        (Marks.before q ⟨[.nakedSingles ⟨c, d⟩], rfl, fun _ => Nat.le_refl 1, fun x hx => ?_⟩)
      rw [List.mem_singleton.mp hx]
      exact fun _ => ⟨_, rfl, rfl⟩
    · cases h5
      cases h4
      exact Marks.of_eq q

theorem deduce_marks {fuel : Nat} (hf : 1000 ≤ fuel) {stop isFirst : Bool} (hsf : isFirst = !stop) {s : Solver}
    (h : W 0 s) {r : Solver × Bool} (he : st.deduce fuel stop isFirst s = .ok r) : Marks stop st s r.1 := by
  have hQ : ∀ {st : Strategy} {cp : Vector DigitSet 81} {hp : HousePoss} (d : Deduction (List Candidate)), DedOf st cp hp d →
      d.strategy = .ok st := fun _ h => h.1
  have hsub : ∀ (size : UInt8), subsetStrategy false size.toNat = some st →
      s.findNakedSubsets fuel size stop = .ok r → Marks stop st s r.1 := by
    intro size hs he
    exact search_marks hf h he fun s1 h1 => ⟨_, _, rfl, hQ, fun h => by rw [h]; exact nakedSubsets_once h1.w.fits size,
      nakedSubsets_search h1.w.fits h1.removed hs stop⟩
  have hhid : ∀ (size : UInt8), subsetStrategy true size.toNat = some st →
      s.findHiddenSubsets fuel size stop = .ok r → Marks stop st s r.1 := by
    intro size hs he
    unfold Solver.findHiddenSubsets andThen at he
    obtain ⟨⟨s1, ok⟩, h1, h2⟩ := bind_ok he
    have hu := update_step (sts := []) (fn := false) (fun h => by cases h) hf h
    rw [h1] at hu
    obtain ⟨q, -⟩ := update_quiet (by omega) hf h h1
    cases ok with
    | false => cases h2; exact Marks.of_eq q
    | true =>
      simp only [if_true] at h2
      have hb1 : Base s1 := (hu.2 rfl).2
      obtain ⟨s2, e, _, h6, h7, h9, _⟩ := updateHousePoss_step (sts := []) hb1.w
      have h9 := h9 hb1
      obtain ⟨hp, hpE, hpN, e', _⟩ := updateHousePoss_w (k := 0) (by omega) hb1.w
      rw [e] at e'
      have e' := Res.ok.inj e'
      have q2 : s2.deductions = s1.deductions := by rw [e']
      rw [e, Res.ok_bind] at h2
      obtain ⟨⟨s3, b'⟩, h3, h4⟩ := bind_ok h2
      cases h4
      have hx := hiddenSubsets_search h9.w.fitsP h6 hs stop
      rw [h3] at hx
      exact Marks.before (q2.trans q) (ext_marks (r := (s3, b')) hQ
        (fun h => by rw [h]; exact hiddenSubsets_once h9.w.fitsP size) h3 hx)
  have hpre : ∃ s2, s.updateHousePoss = .ok s2 ∧ W 0 s2 ∧ s2.deductions = s.deductions := by
    obtain ⟨s2, e, h5, h6, h7, _, _⟩ := updateHousePoss_step (sts := []) h
    obtain ⟨hp, hpE, hpN, e', _⟩ := updateHousePoss_w (k := 0) (by omega) h
    rw [e] at e'
    have e' := Res.ok.inj e'
    exact ⟨s2, e, h5, by rw [e']⟩
  have hfish : ∀ (size : UInt8), fishStrategy size.toNat = some st →
      s.findFish fuel size stop = .ok r → Marks stop st s r.1 := by
    intro size hs he
    obtain ⟨s2, e, h5, d2⟩ := hpre
    unfold Solver.findFish at he
    rw [e, Res.ok_bind] at he
    exact Marks.before d2 (search_marks hf h5 he fun s1 h1 => ⟨_, _, rfl, hQ,
      fun h => by rw [h]; exact fish_once h1.w.fitsP size, fish_search h1.w.fitsP h1.removed hs stop⟩)
  have hmut : ∀ (size : UInt8), size ≠ 0 → s.findMutantFish fuel size stop = .ok r → Marks stop st s r.1 := by
    intro size hs he
    obtain ⟨s2, e, h5, d2⟩ := hpre
    unfold Solver.findMutantFish at he
    rw [e, Res.ok_bind] at he
    unfold andThen at he
    obtain ⟨⟨s1, ok⟩, h1, h2⟩ := bind_ok he
    have hu := update_step (sts := []) (fn := false) (fun h => by cases h) hf h5
    rw [h1] at hu
    obtain ⟨q, -⟩ := update_quiet (by omega) hf h5 h1
    cases ok with
    | false => cases h2; exact Marks.of_eq (q.trans d2)
    | true =>
      simp only [if_true] at h2
      obtain ⟨⟨s3, b'⟩, h3, h4⟩ := bind_ok h2
      cases h4
      have hx := mutantFish_search (hu.2 rfl).2.w.fitsP hs stop
      rw [h3] at hx
      have hx : s3 = s1 := hx
      subst hx
      exact Marks.of_eq (q.trans d2)
  unfold Strategy.deduce at he
  cases st with
  | nakedSingles =>
    dsimp only at he
    split at he
    · rename_i hc
      have hw := update_w (k := 0) (by omega) true true (fuel := fuel) (by omega) s h
      rw [he] at hw
      obtain ⟨ext, _, h2, _⟩ := hw.2.1.ded
      refine ⟨_, h2, fun hs => ?_, fun d hd => ?_⟩
      · subst hsf
        rw [hs] at hc
        cases hc
      · obtain ⟨e, _, rfl⟩ := List.mem_map.mp hd
        exact fun _ => ⟨_, rfl, rfl⟩
    · rename_i hc
      have : stop = true := by
        subst hsf
        cases stop
        · exact absurd rfl hc
        · rfl
      subst this
      exact nakedSingles_marks hf h he
  | hiddenSingles => exact hiddenSingles_marks hf h he
  | lockedCandidates =>
    exact search_marks hf h he fun s1 h1 => ⟨_, _, rfl, hQ,
      fun hb => by rw [hb]; exact locked_once h1.w.fits, locked_search h1.w.fits h1.removed stop⟩
  | nakedPairs => exact hsub 2 rfl he
  | nakedTriples => exact hsub 3 rfl he
  | nakedQuads => exact hsub 4 rfl he
  | hiddenPairs => exact hhid 2 rfl he
  | hiddenTriples => exact hhid 3 rfl he
  | hiddenQuads => exact hhid 4 rfl he
  | xWing => exact hfish 2 rfl he
  | swordfish => exact hfish 3 rfl he
  | jellyfish => exact hfish 4 rfl he
  | xyWing =>
    exact search_marks hf h he fun s1 h1 => ⟨_, _, rfl, hQ,
      fun hb => by rw [hb]; exact xyWing_once _, xyWing_search h1.w.fits h1.removed stop⟩
  | xyzWing =>
    exact search_marks hf h he fun s1 h1 => ⟨_, _, rfl, hQ,
      fun hb => by rw [hb]; exact xyzWing_once _, xyzWing_search h1.w.fits h1.removed stop⟩
  | mutantSwordfish => exact hmut 3 (by decide) he
  | mutantJellyfish => exact hmut 4 (by decide) he
  | avoidableRectangles => cases he

/-! ## Following `solve` -/

/-- The lists of the first state are the beginnings of the lists of the second. -/
def Begins (s s' : Solver) : Prop :=
  (∃ ds, s'.deductions = s.deductions ++ ds) ∧ ∃ es, s'.eliminated = s.eliminated ++ es

theorem Begins.refl (s : Solver) : Begins s s := ⟨⟨[], by simp⟩, [], by simp⟩

theorem Begins.trans {a b c : Solver} (h : Begins a b) (h' : Begins b c) : Begins a c := by
  obtain ⟨⟨x, hx⟩, y, hy⟩ := h
  obtain ⟨⟨u, hu⟩, v, hv⟩ := h'
  exact ⟨⟨x ++ u, by rw [hu, hx, List.append_assoc]⟩, y ++ v, by rw [hv, hy, List.append_assoc]⟩

theorem Marks.begins {sts : List Strategy} {s s' : Solver} (h : Marks one st s s') (h' : Run sts s s') : Begins s s' := by
  obtain ⟨ds, h1, _⟩ := h
  exact ⟨⟨ds, h1⟩, h'.elim⟩

/-- The deduction with number `i` of `s'` is of the strategy `first`, or of a strategy of `rest` and made in a state in
which the strategies before have nothing to find. -/
def Easy (sts : List Strategy) (first : Strategy) (rest : List Strategy) (s s' : Solver) (i : Nat) : Prop :=
  ∃ d st, s'.deductions[i]? = some d ∧ Expl (fun d' => d'.strategy = .ok st) s'.eliminated d ∧
    (st = first ∨ ∃ a pre post, rest = pre ++ st :: post ∧ Final sts s a ∧ Begins a s' ∧ a.deductions.length = i ∧
      ∀ st', Tried first pre st' → Idle st' (CandL a.deduced a.eliminated))

variable {sts : List Strategy} {first : Strategy} {rest : List Strategy}

theorem Easy.after {s s1 s' : Solver} {i : Nat} (h : Easy sts first rest s1 s' i) (h1 : Step sts s (s1, true)) :
    Easy sts first rest s s' i := by
  obtain ⟨d, st, a1, a2, a3⟩ := h
  refine ⟨d, st, a1, a2, a3.imp_right ?_⟩
  rintro ⟨a, pre, post, b1, b2, b3⟩
  exact ⟨a, pre, post, b1, b2.after h1, b3⟩

theorem Easy.extend {s s1 s' : Solver} {i : Nat} (h : Easy sts first rest s s1 i) (h1 : Begins s1 s') :
    Easy sts first rest s s' i := by
  obtain ⟨d, st, a1, a2, a3⟩ := h
  obtain ⟨⟨ds, h2⟩, es, h3⟩ := id h1
  refine ⟨d, st, ?_, by rw [h3]; exact a2.append es, a3.imp_right ?_⟩
  · rw [h2, List.getElem?_append_left (List.getElem?_eq_some_iff.mp a1).1]
    exact a1
  · rintro ⟨a, pre, post, b1, b2, b3, b4⟩
    exact ⟨a, pre, post, b1, b2, b3.trans h1, b4⟩

theorem restLoop_easy {fuel : Nat} (hf : 1000 ≤ fuel) {t : Grid} (ht : Solved t) {n m : Nat} (hsts : ∀ st ∈ rest, st ∈ sts) :
    ∀ (rs pre : List Strategy) (s : Solver) (r : Solver × Bool) (g : Grid), rest = pre ++ rs → W 0 s → Sem s g → Agree t s →
    n = s.deduced.length → m ≤ s.eliminated.length → (r.2 = false → r.1.eliminated.length < 65536) →
    (∀ st ∈ pre, Idle st (CandL s.deduced s.eliminated)) → (pre ≠ [] → s.eliminated.length = m) →
    (s.eliminated.length = m → first ≠ .nakedSingles → Idle first (CandL s.deduced s.eliminated)) →
    (first = .hiddenSingles → Idle first (CandL s.deduced s.eliminated)) →
    restLoop fuel n m rs s = .ok r →
    Begins s r.1 ∧ ∀ i, s.deductions.length ≤ i → i < r.1.deductions.length → Easy sts first rest s r.1 i := by
  intro rs
  induction rs with
  | nil =>
    intro pre s r g _ _ _ _ _ _ _ _ _ _ _ he
    cases he
    exact ⟨Begins.refl s, fun i h1 h2 => absurd h1 (by dsimp only at h2; omega)⟩
  | cons st rs ih =>
    intro pre s r g hpre h hs ha hn hm hl hi hp hq hh he
    unfold restLoop at he
    obtain ⟨⟨s1, ok⟩, h1, h2⟩ := bind_ok he
    have hav : st ≠ .avoidableRectangles := by
      rintro rfl
      cases h1
    have hst := deduce_step (sts := sts) (hsts st (by rw [hpre]; simp)) hav hf (stop := true) (isFirst := false) rfl h
    have hmk := deduce_marks hf (stop := true) (isFirst := false) rfl h h1
    rw [h1] at hst
    obtain ⟨r1, g1, _, sem1⟩ := hst.sem g hs
    have hb : Begins s s1 := hmk.begins r1
    have here : ∀ i, s.deductions.length ≤ i → i < s1.deductions.length → Easy sts first rest s s1 i := by
      intro i h3 h4
      obtain ⟨ds, k1, k2, k3⟩ := hmk
      dsimp only at k1 k3
      have k2 := k2 rfl
      obtain ⟨d, hd⟩ : ∃ d, s1.deductions[i]? = some d := ⟨_, List.getElem?_eq_getElem h4⟩
      rw [k1, List.length_append] at h4
      refine ⟨_, st, hd, k3 _ ?_, Or.inr ⟨s, pre, rs, hpre, Final.refl s, hb, by omega, ?_⟩⟩
      · rw [k1, List.getElem?_append_right h3] at hd
        exact List.mem_of_getElem? hd
      · rintro st' (h5 | ⟨rfl, h5 | ⟨h5, h6⟩⟩)
        · exact hi st' h5
        · exact hh h5
        · exact hq (hp h6) h5
    cases ok
    · cases h2
      exact absurd ha (hst.nosol rfl (hl rfl) g hs t ht)
    · simp only [Bool.not_true, Bool.false_eq_true, if_false] at h2
      split at h2
      · cases h2
        exact ⟨hb, here⟩
      · rename_i hc
        rw [Bool.or_eq_true, decide_eq_true_eq, decide_eq_true_eq, not_or] at hc
        obtain ⟨m1, m2⟩ := r1.mono
        dsimp only at m1 m2
        obtain ⟨e1, e2⟩ := r1.same (by dsimp only; omega) (by dsimp only; omega)
        dsimp only at e1 e2
        have e1' := congrArg List.length e1
        have e2' := congrArg List.length e2
        obtain ⟨i1, i2⟩ := ih (pre ++ [st]) s1 r g1 (by rw [hpre]; simp) (hst.w rfl) (sem1 rfl) (r1.pres t ht ha) (by omega)
          (by omega) hl (by
            rw [e1, e2]
            intro st' hst'
            rcases List.mem_append.mp hst' with h5 | h5
            · exact hi st' h5
            · rw [List.mem_singleton.mp h5]
              exact deduce_idle hf rfl (fun _ => rfl) h hs ht ha h1 e1' e2') (fun _ => by omega)
          (by rw [e1, e2]; exact hq) (by rw [e1, e2]; exact hh) h2
        refine ⟨hb.trans i1, fun i h3 h4 => ?_⟩
        by_cases h5 : i < s1.deductions.length
        · exact (here i h3 h5).extend i1
        · exact (i2 i (by omega) h4).after hst.toStep

theorem solveLoop_easy {fuel0 : Nat} (hf : 1000 ≤ fuel0) {t : Grid} (ht : Solved t) (hsts : ∀ st ∈ first :: rest, st ∈ sts) :
    ∀ (fuel : Nat) (s s' : Solver) (g : Grid), W 0 s → Sem s g → Agree t s → s'.eliminated.length < 65536 →
    solveLoop fuel0 first rest fuel s = .ok s' →
    Begins s s' ∧ ∀ i, s.deductions.length ≤ i → i < s'.deductions.length → Easy sts first rest s s' i := by
  intro fuel
  induction fuel with
  | zero => intro s s' g _ _ _ _ he; cases he
  | succ fuel ih =>
    intro s s' g h hs ha hl he
    unfold solveLoop at he
    split at he
    · cases he
      exact ⟨Begins.refl s, fun i h1 h2 => by omega⟩
    · dsimp only at he
      obtain ⟨⟨s1, ok⟩, h1, h2⟩ := bind_ok he
      have hav : first ≠ .avoidableRectangles := by
        rintro rfl
        cases h1
      have hst := deduce_step (sts := sts) (hsts first (by simp)) hav hf (stop := false) (isFirst := true) rfl h
      have hmk := deduce_marks hf (stop := false) (isFirst := true) rfl h h1
      rw [h1] at hst
      obtain ⟨r1, g1, _, sem1⟩ := hst.sem g hs
      have hb : Begins s s1 := hmk.begins r1
      have here : ∀ i, s.deductions.length ≤ i → i < s1.deductions.length → Easy sts first rest s s1 i := by
        intro i h3 h4
        obtain ⟨ds, k1, -, k3⟩ := hmk
        dsimp only at k1 k3
        obtain ⟨d, hd⟩ : ∃ d, s1.deductions[i]? = some d := ⟨_, List.getElem?_eq_getElem h4⟩
        refine ⟨_, first, hd, k3 _ ?_, Or.inl rfl⟩
        rw [k1, List.getElem?_append_right h3] at hd
        exact List.mem_of_getElem? hd
      cases ok
      · cases h2
        exact absurd ha (hst.nosol rfl hl g hs t ht)
      · simp only [Bool.not_true, Bool.false_eq_true, if_false] at h2
        have ha1 := r1.pres t ht ha
        split at h2
        · obtain ⟨i1, i2⟩ := ih s1 s' g1 (hst.w rfl) (sem1 rfl) ha1 hl h2
          refine ⟨hb.trans i1, fun i h3 h4 => ?_⟩
          by_cases h5 : i < s1.deductions.length
          · exact (here i h3 h5).extend i1
          · exact (i2 i (by omega) h4).after hst.toStep
        · rename_i hc
          obtain ⟨m1, m2⟩ := r1.mono
          dsimp only at m1 m2
          obtain ⟨⟨s2, again⟩, h3, h4⟩ := bind_ok h2
          have hrest : ∀ st ∈ usable rest, st ∈ sts ∧ st ≠ .avoidableRectangles :=
            fun st hst => ⟨hsts st (by simp [usable_sub rest st hst]), usable_ne rest st hst⟩
          have h5 := restLoop_step (sts := sts) hf s.deduced.length s.eliminated.length (usable rest) s1 hrest (hst.w rfl)
          rw [restLoop_usable h3] at h5
          have hel : s1.eliminated.length = s.eliminated.length → first ≠ .nakedSingles →
              Idle first (CandL s1.deduced s1.eliminated) := by
            intro hel hnk
            obtain ⟨k1, k2⟩ := r1.same (by dsimp only; omega) (by dsimp only; omega)
            dsimp only at k1 k2
            rw [k1, k2]
            exact deduce_idle (stop := false) (isFirst := true) hf rfl (fun h => absurd h hnk) h hs ht ha h1 (by omega) (by omega)
          have h6 := restLoop_easy (first := first) (rest := rest) (sts := sts) hf ht (n := s.deduced.length) (m := s.eliminated.length)
            (fun st hst => hsts st (by simp [hst])) rest [] s1 (s2, again) g1 rfl (hst.w rfl) (sem1 rfl) ha1 (by omega) m2
            (by
              intro hag
              dsimp only at hag
              subst hag
              cases h4
              exact hl) (by simp) (fun h => absurd rfl h) hel (by
              intro hh
              refine hel ?_ (by rw [hh]; decide)
              subst hh
              exact congrArg List.length (hiddenSingles_idle hf h hs ht ha h1 (by omega)).1) h3
          dsimp only at h6
          obtain ⟨i1, i2⟩ := h6
          have upto : ∀ i, s.deductions.length ≤ i → i < s2.deductions.length → Easy sts first rest s s2 i := by
            intro i h7 h8
            by_cases h9 : i < s1.deductions.length
            · exact (here i h7 h9).extend i1
            · exact (i2 i (by omega) h8).after hst.toStep
          cases again
          · cases h4
            exact ⟨hb.trans i1, upto⟩
          · obtain ⟨r2, g2, _, sem2⟩ := h5.1.sem g1 (sem1 rfl)
            obtain ⟨j1, j2⟩ := ih s2 s' g2 (h5.1.w rfl) (sem2 rfl) (r2.pres t ht ha1) hl h4
            refine ⟨(hb.trans i1).trans j1, fun i h7 h8 => ?_⟩
            by_cases h9 : i < s2.deductions.length
            · exact (upto i h7 h9).extend j1
            · exact (j2 i (by omega) h8).after (h5.1.after hst.toStep)

/-! ## The candidates when a deduction is made -/

theorem withSlices_append {d : RangeDeduction} {l m : List Candidate} {x : Deduction (List Candidate)}
    (h : withSlices d l = .ok x) : withSlices d (l ++ m) = .ok x := by
  unfold withSlices at h ⊢
  cases d with
  | nakedSingles c => exact h
  | hiddenSingles c x => exact h
  | avoidableRectangle _ _ => cases h
  | _ =>
    dsimp only at h ⊢
    obtain ⟨y, h1, h2⟩ := bind_ok h
    rw [slice_append h1]
    exact h2

/-- The deductions read from the beginning of the lists. -/
theorem Begins.get {a s' : Solver} (h : Begins a s') {j : Nat} {x : Deduction (List Candidate)}
    (hx : a.outcome.2.get j = .ok (some x)) : j < a.deductions.length ∧ s'.outcome.2.get j = .ok (some x) := by
  obtain ⟨⟨ds, h1⟩, es, h2⟩ := h
  unfold Deductions.get at hx ⊢
  have hx : (match a.deductions[j]? with
    | none => Res.ok none
    | some d => do Res.ok (some (← withSlices d a.eliminated))) = Res.ok (some x) := hx
  show _ ∧ (match s'.deductions[j]? with
    | none => Res.ok none
    | some d => do Res.ok (some (← withSlices d s'.eliminated))) = Res.ok (some x)
  cases hd : a.deductions[j]? with
  | none =>
    rw [hd] at hx
    cases hx
  | some d =>
    rw [hd] at hx
    have hlt := (List.getElem?_eq_some_iff.mp hd).1
    refine ⟨hlt, ?_⟩
    rw [h1, List.getElem?_append_left hlt, hd, h2]
    dsimp only at hx ⊢
    obtain ⟨y, h3, h4⟩ := bind_ok hx
    rw [withSlices_append h3]
    exact h4

/-- The candidates in a state before. -/
theorem leftBefore_eq {s a s' : Solver} {g gh : Grid} {X : Fin 81 → Digit → Prop} (h : Inv s g X)
    (hs : Sem s gh) (hF : Final sts s a) (hb : Begins a s') :
    LeftBefore g X s'.outcome.2 a.deductions.length = CandL a.deduced a.eliminated := by
  obtain ⟨hrun, -⟩ := hF.sem gh hs
  obtain ⟨c1, c2, c3⟩ := solve_covers h hs hF
  have hlog := hrun.log s.deduced s.eliminated False (fun h => h.elim) (h.log sts _)
  obtain ⟨u, hu⟩ := hrun.ded
  obtain ⟨v, hv⟩ := hrun.elim
  funext c d
  refine propext ⟨?_, ?_⟩
  · rintro ⟨h0, hx, hd, hr⟩
    refine ⟨?_, fun e he => ?_⟩
    · rintro ⟨c', d'⟩ he ⟨rfl, rfl⟩
      rcases c2 _ he with h1 | ⟨i, x, h1, h2⟩
      · exact hx h1
      · obtain ⟨k1, k2⟩ := hb.get h1
        exact (hr i k1 x k2).1 h2
    · rcases c1 e he with h1 | ⟨i, x, h1, h2⟩
      · refine ⟨?_, ?_⟩
        · rintro rfl
          rw [h0] at h1
          exact Digit.get_ne_zero _ h1.symm
        · rintro ⟨rfl, hsh⟩
          exact hd e.cell hsh h1
      · obtain ⟨k1, k2⟩ := hb.get h1
        exact (hr i k1 x k2).2 e h2
  · rintro ⟨h1, h2⟩
    have hg : ∀ (c' : Fin 81) (d' : Digit), g[c'] = d'.get → (⟨c', d'⟩ : Candidate) ∈ a.deduced := fun c' d' hc => by
      rw [hu]
      exact List.mem_append_left _ ((h.ded c' d').mpr hc)
    refine ⟨?_, ?_, ?_, ?_⟩
    · by_contra h0
      obtain ⟨d', hd'⟩ := h.wf c h0
      exact (h2 _ (hg c d' hd')).1 rfl
    · intro hx
      exact h1 ⟨c, d⟩ (by rw [hv]; exact List.mem_append_left _ ((h.elim c d).mpr hx)) ⟨rfl, rfl⟩
    · intro c' hsh hc
      exact (h2 _ (hg c' d hc)).2 ⟨rfl, hsh⟩
    · intro j hj x hx
      obtain ⟨x', hx1, -, -, hx2⟩ := get_of_index hlog (List.getElem?_eq_getElem hj)
      rw [(hb.get hx1).2] at hx
      cases hx
      refine ⟨fun hm => ?_, fun e he => h2 e (c3 j _ e hx1 he)⟩
      obtain ⟨rg, -, hrg⟩ := (hx2 _).mp hm
      exact h1 _ (List.mem_of_mem_take (List.mem_of_mem_drop hrg)) ⟨rfl, rfl⟩

/-- Each deduction of a run. -/
theorem solve_easy {fuel : Nat} (hf : 1000 ≤ fuel) {s : Solver} {g gh : Grid} {X : Fin 81 → Digit → Prop} (h : Inv s g X)
    (hs : Sem s gh) {r : Grid × Deductions} (hr : Returned fuel (first :: rest) s r)
    (hl : r.2.eliminated.length < 65536) {t : Grid} (ht : SolutionOf g X t) {i : Nat} {x : Deduction (List Candidate)}
    (hx : r.2.get i = .ok (some x)) (st : Strategy) (hst : x.strategy = .ok st) :
    st = first ∨ ∃ pre post, rest = pre ++ st :: post ∧
      ∀ st', Tried first pre st' → Idle st' (LeftBefore g X r.2 i) := by
  obtain ⟨s', h1, h2⟩ : ∃ s', s.trySolve fuel (first :: rest) = .ok s' ∧ r = s'.outcome := by
    rcases hr with hr | hr
    all_goals
      unfold Solver.solve at hr
      obtain ⟨s', h1, h2⟩ := bind_ok hr
      dsimp only at h2
      split at h2
      all_goals cases h2
      exact ⟨s', h1, rfl⟩
  subst h2
  obtain ⟨-, h3⟩ := solveLoop_easy (sts := first :: rest) hf ht.1.1 (fun _ h => h) fuel s s' gh h.w hs (h.agree_of ht) hl h1
  have hi : i < s'.deductions.length := by
    by_contra hc
    unfold Deductions.get at hx
    have : s'.outcome.2.deductions[i]? = none := List.getElem?_eq_none (by show s'.deductions.length ≤ i; omega)
    rw [this] at hx
    cases hx
  obtain ⟨d, st', k1, k2, k3⟩ := h3 i (by rw [h.none]; exact Nat.zero_le i) hi
  obtain ⟨d', k4, k5⟩ := k2 []
  rw [List.append_nil] at k4
  have : s'.outcome.2.get i = .ok (some d') := by
    unfold Deductions.get
    show (match s'.deductions[i]? with
      | none => Res.ok none
      | some d => do Res.ok (some (← withSlices d s'.eliminated))) = _
    rw [k1]
    show (withSlices d s'.eliminated >>= fun x => Res.ok (some x)) = _
    rw [k4]
    rfl
  rw [this] at hx
  cases hx
  rw [k5] at hst
  cases hst
  refine k3.imp_right ?_
  rintro ⟨a, pre, post, b1, b2, b3, b4, b5⟩
  refine ⟨pre, post, b1, ?_⟩
  rw [← b4, leftBefore_eq h hs b2 b3]
  exact b5

end Verif.Strat
