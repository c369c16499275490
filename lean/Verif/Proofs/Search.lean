import Verif.Proofs.Extract

/-! The backtracking search finds solutions without repetition, up to the limit. -/
namespace Verif.FastSolver

attribute [local irreducible] psi

/-- Effect of finding one more solution on the result container. -/
def Solutions.add (a : Solutions) (t : Grid) : Solutions :=
  match a with
  | .count n => .count (n + 1)
  | .vector v => .vector (v ++ [t])
  | .buffer buf len => .buffer (if len < buf.length then buf.set len t else buf) (len + 1)

theorem Solutions.len_add (a : Solutions) (t : Grid) : (a.add t).len = a.len + 1 := by
  cases a <;> simp [Solutions.add, Solutions.len]

theorem Solutions.len_foldl (L : List Grid) (a : Solutions) : (L.foldl Solutions.add a).len = a.len + L.length := by
  induction L generalizing a with
  | nil => rfl
  | cons t L ih => rw [List.foldl_cons, ih, len_add, List.length_cons]; omega

/-- `r` extends `acc` by distinct members of `S`, at most `limit` in total, all of them if the
limit is not reached. -/
def SearchSpec (S : Grid → Prop) (limit : Nat) (acc : Solutions) (r : Res Solutions) : Prop :=
  ∃ L : List Grid, r = .ok (L.foldl Solutions.add acc) ∧ L.Nodup ∧ (∀ t ∈ L, S t) ∧
    acc.len + L.length ≤ limit ∧ (acc.len + L.length < limit → ∀ t, S t → t ∈ L)

theorem SearchSpec.congr {S S' : Grid → Prop} {limit acc r} (h : SearchSpec S limit acc r)
    (he : ∀ t, S t ↔ S' t) : SearchSpec S' limit acc r := by
  have : S = S' := funext fun t => propext (he t)
  rw [← this]; exact h

theorem SearchSpec.nil {S : Grid → Prop} {limit : Nat} {acc : Solutions} (hl : acc.len ≤ limit)
    (h : acc.len = limit ∨ ∀ t, ¬ S t) : SearchSpec S limit acc (.ok acc) := by
  refine ⟨[], rfl, List.nodup_nil, by simp, by simpa using hl, fun hlt t ht => ?_⟩
  simp only [List.length_nil, Nat.add_zero] at hlt
  rcases h with h | h
  · omega
  · exact absurd ht (h t)

/-- Sequential composition of two searches over disjoint sets. -/
theorem SearchSpec.bind {S1 S2 S : Grid → Prop} {limit : Nat} {acc : Solutions} {r1 : Res Solutions}
    {f : Solutions → Res Solutions} (h1 : SearchSpec S1 limit acc r1)
    (h2 : ∀ acc', acc'.len ≤ limit → SearchSpec S2 limit acc' (f acc'))
    (hdisj : ∀ t, S1 t → S2 t → False) (hS : ∀ t, S t ↔ S1 t ∨ S2 t) :
    SearchSpec S limit acc (r1 >>= f) := by
  obtain ⟨L1, rfl, n1, m1, l1, c1⟩ := h1
  rw [Res.ok_bind]
  have hlen := Solutions.len_foldl L1 acc
  obtain ⟨L2, e2, n2, m2, l2, c2⟩ := h2 (L1.foldl Solutions.add acc) (by omega)
  rw [hlen] at l2 c2
  refine ⟨L1 ++ L2, by rw [e2, List.foldl_append], ?_, ?_, by rw [List.length_append]; omega, ?_⟩
  · rw [List.nodup_append]
    exact ⟨n1, n2, fun a ha b hb e => hdisj a (m1 a ha) (by rw [e]; exact m2 b hb)⟩
  · intro t ht
    rw [hS]
    rcases List.mem_append.1 ht with ht | ht
    · exact Or.inl (m1 t ht)
    · exact Or.inr (m2 t ht)
  · intro hlt t ht
    rw [List.length_append] at hlt
    rw [List.mem_append]
    rcases (hS t).1 ht with ht | ht
    · exact Or.inl (c1 (by omega) t ht)
    · exact Or.inr (c2 (by omega) t ht)

theorem record_spec {s : Solver} (h : GuessState s) (hs : s.isSolved = true) {limit : Nat} {acc : Solutions}
    (hl : acc.len < limit) : SearchSpec (Sol s.poss) limit acc (s.record acc) := by
  obtain ⟨t, h1, h2, h3⟩ := extract_spec h.inv h.clean hs
  refine ⟨[t], ?_, List.nodup_singleton t, by simpa using h2, by simp; omega, fun _ t' ht' => by simp [h3 t' ht']⟩
  simp only [List.foldl_cons, List.foldl_nil]
  cases acc with
  | count n => rfl
  | vector v => simp [Solver.record, h1, Solutions.add]
  | buffer buf len =>
    simp only [Solver.record, h1, Solutions.add, Res.ok_bind]
    split <;> rfl

/-- What the recursive call must satisfy for states of measure below `N`. -/
def RecOk (N limit : Nat) (rec : Solver → Solutions → Res Solutions) : Prop :=
  ∀ s acc, GuessState s → psi s < N → acc.len < limit → SearchSpec (Sol s.poss) limit acc (rec s acc)

theorem solveThen_spec {fuel N limit : Nat} {rec : Solver → Solutions → Res Solutions} (hrec : RecOk N limit rec)
    {s : Solver} (h : Inv s) (hpsi : psi s < N ∨ (Dirty s ∧ psi s ≤ N)) (hfuel : psi s < fuel)
    {acc : Solutions} (hl : acc.len ≤ limit) :
    SearchSpec (Sol s.poss) limit acc (s.solveThen fuel rec limit acc) := by
  unfold Solver.solveThen Solver.solve
  simp only [hl, decide_true, Res.assert_true, Res.ok_bind]
  by_cases he : acc.len = limit
  · rw [if_pos he]
    exact SearchSpec.nil hl (Or.inl he)
  · rw [if_neg he]
    have hp := solveLoop_post fuel fuel h hfuel (Or.inl hfuel)
    generalize s.solveLoop fuel fuel = r at hp
    match r, hp with
    | .ok s', hp =>
      obtain ⟨h1, h2, h3⟩ := hp
      have hlt : psi s' < N := by
        rcases hpsi with e | ⟨e1, e2⟩
        · exact lt_of_le_of_lt h1.psi e
        · exact lt_of_lt_of_le (h3 e1) e2
      exact (hrec s' acc h2 hlt (by omega)).congr fun t => ⟨fun ht => ht.mono h1.sub, h1.sol t⟩
    | .err, hp => exact SearchSpec.nil hl (Or.inr hp)

/-! ### Branching on a cell -/

/-- Trying a candidate of an unsolved cell. -/
theorem insert_child {s : Solver} (h : Inv s) (hset : Settled s) {b : Fin 3} {c : Nat} (hc : c < 27)
    (hu : s.unsolved[b].getLsbD c = true) {d : Fin 9} (hp : s.poss[sb d b].getLsbD c = true) :
    ∃ s', s.insertCandidateByMask (sb d b) (BitVec.twoPow 32 c) = .ok s' ∧ Inv s' ∧ Dirty s' ∧
      psi s' = psi s ∧ ∀ t, Sol s'.poss t ↔
        (Sol s.poss t ∧ t[(⟨b.val * 27 + c, by omega⟩ : Fin 81)].toNat = d.val + 1) := by
  obtain ⟨s', he, u⟩ := insert_spec hc hp
  have hprev : s.prev[sb d b] ≠ 0 := by
    intro hz
    rw [hset _ hz] at hp; simp at hp
  refine ⟨s', he, u.inv h hc hp, u.dirty h hc (h.sub _ hprev _ hp) ?_, u.psi, fun t => ⟨fun ht => ⟨ht.mono u.mono, ?_⟩, fun ht => ?_⟩⟩
  · intro hL
    have := h.solved1 (sb d b) b (sb_mod d b).symm c hc hL
    rw [hu] at this; cases this
  · have := u.sol_val ht (x := ⟨b.val * 27 + c, by omega⟩) (by rw [sb_mod]; simp only; omega) (by simp only; omega)
    rw [this, sb_div]
  · exact u.sol ht.1 (x := ⟨b.val * 27 + c, by omega⟩) (by rw [sb_mod]; simp only; omega) (by simp only; omega)
      (by rw [ht.2, sb_div])

/-- `poss[i] ^= cell`. -/
def removeCand (s : Solver) (i : Fin 27) (m : Mask) : Solver :=
  { s with poss := s.poss.set i (s.poss[i] ^^^ m) }

theorem removeCand_get (s : Solver) {i : Fin 27} {c : Nat} (hc : c < 27) (hp : s.poss[i].getLsbD c = true)
    (n : Fin 27) (x : Nat) : (removeCand s i (BitVec.twoPow 32 c)).poss[n].getLsbD x = true ↔
      s.poss[n].getLsbD x = true ∧ ¬ (n = i ∧ x = c) := by
  unfold removeCand
  simp only
  rw [set_get]
  by_cases hn : n = i
  · subst hn
    rw [if_pos rfl, BitVec.getLsbD_xor, getLsbD_twoPow_of_lt (by omega)]
    by_cases hx : x = c
    · subst hx
      simp only [hp, decide_true, Bool.xor_self]; simp
    · have : c ≠ x := Ne.symm hx
      simp [hx, this]
  · simp [hn]

theorem removeCand_spec {s : Solver} (h : Inv s) (hset : Settled s) {b : Fin 3} {c : Nat} (hc : c < 27)
    {d : Fin 9} (hp : s.poss[sb d b].getLsbD c = true) :
    let s' := removeCand s (sb d b) (BitVec.twoPow 32 c)
    Inv s' ∧ Settled s' ∧ psi s' = psi s ∧ ∀ t, Sol s'.poss t ↔
        (Sol s.poss t ∧ t[(⟨b.val * 27 + c, by omega⟩ : Fin 81)].toNat ≠ d.val + 1) := by
  have hget := removeCand_get s hc hp
  intro s'
  have hsub : PSub s'.poss s.poss := fun n x hx => ((hget n x).1 hx).1
  refine ⟨h.of_sub rfl rfl rfl hsub ?_, ?_, by unfold psi; rfl, fun t => ⟨fun ht => ⟨ht.mono hsub, fun hv => ?_⟩, fun ht => ?_⟩⟩
  · intro i x _ hz hL
    have := hL.lone.1
    rw [hset i hz] at this; simp at this
  · intro i hz
    have h0 := hset i hz
    rw [eq_zero_iff] at h0 ⊢
    intro x
    by_contra hh
    have := hsub i x (by simpa using hh)
    rw [h0 x] at this; cases this
  · have := ht.2 (sb d b) ⟨b.val * 27 + c, by omega⟩ (by rw [sb_mod]; simp only; omega) (by rw [hv, sb_div])
    rw [hget] at this
    exact this.2 ⟨rfl, by simp only; omega⟩
  · refine ⟨ht.1.1, fun n x hx hv => ?_⟩
    rw [hget]
    refine ⟨ht.1.2 n x hx hv, fun ⟨e1, e2⟩ => ht.2 ?_⟩
    subst e1
    rw [sb_mod] at hx
    rw [sb_div] at hv
    have : x = ⟨b.val * 27 + c, by omega⟩ := Fin.ext (by simp only; omega)
    exact (congrArg (fun z : Fin 81 => t[z].toNat) this).symm.trans hv

theorem and_ne_iff {m : Mask} {c : Nat} (hc : c < 27) : m &&& BitVec.twoPow 32 c ≠ NONE ↔ m.getLsbD c = true := by
  have := and_twoPow_eq_zero (m := m) (i := c) (by omega)
  show ¬ (m &&& BitVec.twoPow 32 c = 0) ↔ _
  rw [this]; simp

theorem someCellLoop_spec {fuel N limit : Nat} {rec : Solver → Solutions → Res Solutions} (hrec : RecOk N limit rec)
    (hfuel : N < fuel) {b : Fin 3} {c : Nat} (hc : c < 27) (ds : List (Fin 9)) :
    ∀ (s : Solver) (acc : Solutions), Inv s → Settled s → psi s ≤ N → s.unsolved[b].getLsbD c = true →
      (∀ d, s.poss[sb d b].getLsbD c = true → d ∈ ds) → acc.len ≤ limit →
      SearchSpec (Sol s.poss) limit acc (Solver.someCellLoop fuel rec limit b (BitVec.twoPow 32 c) ds s acc) := by
  induction ds with
  | nil =>
    intro s acc h hset hN hu hcand hl
    refine SearchSpec.nil hl (Or.inr fun t ht => ?_)
    obtain ⟨d, _, hd⟩ := ht.cell b hc
    exact absurd (hcand d hd) (by simp)
  | cons d ds ih =>
    intro s acc h hset hN hu hcand hl
    unfold Solver.someCellLoop
    simp only [and_ne_iff hc]
    by_cases hp : s.poss[sb d b].getLsbD c = true
    · rw [if_pos hp]
      obtain ⟨s1, he, hI, hD, hpsi, hsol⟩ := insert_child h hset hc hu hp
      rw [he, Res.ok_bind]
      obtain ⟨r1, r2, r3, r4⟩ := removeCand_spec h hset hc hp
      have hch := solveThen_spec hrec hI (Or.inr ⟨hD, by omega⟩) (fuel := fuel) (by omega) hl
      refine SearchSpec.bind (hch.congr hsol) (S2 := fun t => Sol s.poss t ∧
        t[(⟨b.val * 27 + c, by omega⟩ : Fin 81)].toNat ≠ d.val + 1) ?_ (fun t h1 h2 => h2.2 h1.2) ?_
      · intro acc' hl'
        by_cases hlim : acc'.len = limit
        · simp only [if_pos hlim]
          exact SearchSpec.nil hl' (Or.inl hlim)
        · simp only [if_neg hlim]
          refine (ih _ acc' r1 r2 (by rw [r3]; exact hN) hu ?_ hl').congr r4
          intro d' hd'
          have hd'' := (removeCand_get s hc hp (sb d' b) c).1 hd'
          rcases List.mem_cons.1 (hcand d' hd''.1) with e | e
          · exact absurd ⟨by rw [e], rfl⟩ hd''.2
          · exact e
      · intro t
        constructor
        · intro ht
          by_cases hv : t[(⟨b.val * 27 + c, by omega⟩ : Fin 81)].toNat = d.val + 1
          · exact Or.inl ⟨ht, hv⟩
          · exact Or.inr ⟨ht, hv⟩
        · rintro (ht | ht)
          · exact ht.1
          · exact ht.1
    · rw [if_neg hp]
      refine ih s acc h hset hN hu (fun d' hd' => ?_) hl
      rcases List.mem_cons.1 (hcand d' hd') with e | e
      · subst e; exact absurd hd' hp
      · exact e

/-- Second part of the bivalue loop: one candidate is left. -/
theorem bivalueLoop_second {fuel N limit : Nat} {rec : Solver → Solutions → Res Solutions} (hrec : RecOk N limit rec)
    (hfuel : N < fuel) {b : Fin 3} {c : Nat} (hc : c < 27) {s : Solver} {acc : Solutions} (h : Inv s)
    (hset : Settled s) (hN : psi s ≤ N) (hu : s.unsolved[b].getLsbD c = true) {d2 : Fin 9}
    (hp : s.poss[sb d2 b].getLsbD c = true) (huniq : ∀ d, s.poss[sb d b].getLsbD c = true → d = d2)
    (hl : acc.len ≤ limit) (n : Nat) : ∀ k, k ≤ d2.val → k + n = 10 →
      SearchSpec (Sol s.poss) limit acc
        (Solver.bivalueLoop fuel rec limit (BitVec.twoPow 32 c) n s (k * 3 + b.val) false acc) := by
  induction n with
  | zero => intro k hk hn; omega
  | succ n ih =>
    intro k hk hn
    unfold Solver.bivalueLoop
    have hlt : k * 3 + b.val < 27 := by omega
    rw [dif_pos hlt]
    simp only [and_ne_iff hc]
    by_cases hkd : k = d2.val
    · subst hkd
      have hp' : s.poss[(⟨d2.val * 3 + b.val, hlt⟩ : Fin 27)].getLsbD c = true := hp
      obtain ⟨s1, he, hI, hD, hpsi, hsol⟩ := insert_child h hset hc hu hp
      have he' : s.insertCandidateByMask ⟨d2.val * 3 + b.val, hlt⟩ (BitVec.twoPow 32 c) = .ok s1 := he
      rw [if_pos hp', if_neg (by simp), he', Res.ok_bind]
      refine (solveThen_spec hrec hI (Or.inr ⟨hD, by omega⟩) (fuel := fuel) (by omega) hl).congr fun t => ?_
      rw [hsol]
      refine ⟨And.left, fun ht => ⟨ht, ?_⟩⟩
      obtain ⟨d, h1, h2⟩ := ht.cell b hc
      rw [h1, huniq d h2]
    · rw [if_neg]
      · have := ih (k + 1) (by omega) (by omega)
        rwa [show (k + 1) * 3 + b.val = k * 3 + b.val + 3 by omega] at this
      · intro hpk
        exact hkd (congrArg Fin.val (huniq ⟨k, by omega⟩ hpk))

theorem bivalueLoop_spec {fuel N limit : Nat} {rec : Solver → Solutions → Res Solutions} (hrec : RecOk N limit rec)
    (hfuel : N < fuel) {b : Fin 3} {c : Nat} (hc : c < 27) {s : Solver} {acc : Solutions} (h : Inv s)
    (hset : Settled s) (hN : psi s ≤ N) (hu : s.unsolved[b].getLsbD c = true) {d1 d2 : Fin 9} (h12 : d1 < d2)
    (hp1 : s.poss[sb d1 b].getLsbD c = true) (hp2 : s.poss[sb d2 b].getLsbD c = true)
    (huniq : ∀ d, s.poss[sb d b].getLsbD c = true → d = d1 ∨ d = d2)
    (hl : acc.len ≤ limit) (n : Nat) : ∀ k, k ≤ d1.val → k + n = 10 →
      SearchSpec (Sol s.poss) limit acc
        (Solver.bivalueLoop fuel rec limit (BitVec.twoPow 32 c) n s (k * 3 + b.val) true acc) := by
  induction n with
  | zero => intro k hk hn; omega
  | succ n ih =>
    intro k hk hn
    unfold Solver.bivalueLoop
    have hlt : k * 3 + b.val < 27 := by omega
    rw [dif_pos hlt]
    simp only [and_ne_iff hc]
    have h12' : d1.val < d2.val := h12
    by_cases hkd : k = d1.val
    · subst hkd
      have hp' : s.poss[(⟨d1.val * 3 + b.val, hlt⟩ : Fin 27)].getLsbD c = true := hp1
      obtain ⟨s1, he, hI, hD, hpsi, hsol⟩ := insert_child h hset hc hu hp1
      have he' : s.insertCandidateByMask ⟨d1.val * 3 + b.val, hlt⟩ (BitVec.twoPow 32 c) = .ok s1 := he
      rw [if_pos hp', if_pos trivial, he', Res.ok_bind]
      obtain ⟨r1, r2, r3, r4⟩ := removeCand_spec h hset hc hp1
      have hch := solveThen_spec hrec hI (Or.inr ⟨hD, by omega⟩) (fuel := fuel) (by omega) hl
      refine SearchSpec.bind (hch.congr hsol) (S2 := fun t => Sol s.poss t ∧
        t[(⟨b.val * 27 + c, by omega⟩ : Fin 81)].toNat ≠ d1.val + 1) ?_ (fun t h1 h2 => h2.2 h1.2) ?_
      · intro acc' hl'
        have hget := removeCand_get s hc hp1
        have := bivalueLoop_second hrec hfuel hc r1 r2 (by rw [r3]; exact hN) hu (d2 := d2) (acc := acc')
          ((hget _ _).2 ⟨hp2, fun e => by have := (sb_inj e.1).1; omega⟩)
          (fun d hd => by
            obtain ⟨e1, e2⟩ := (hget _ _).1 hd
            rcases huniq d e1 with e | e
            · exact absurd ⟨by rw [e], rfl⟩ e2
            · exact e) hl' n (d1.val + 1) (by omega) (by omega)
        rw [show (d1.val + 1) * 3 + b.val = d1.val * 3 + b.val + 3 by omega] at this
        exact this.congr r4
      · intro t
        constructor
        · intro ht
          by_cases hv : t[(⟨b.val * 27 + c, by omega⟩ : Fin 81)].toNat = d1.val + 1
          · exact Or.inl ⟨ht, hv⟩
          · exact Or.inr ⟨ht, hv⟩
        · rintro (ht | ht)
          · exact ht.1
          · exact ht.1
    · rw [if_neg]
      · have := ih (k + 1) (by omega) (by omega)
        rwa [show (k + 1) * 3 + b.val = k * 3 + b.val + 3 by omega] at this
      · intro hpk
        rcases huniq ⟨k, by omega⟩ hpk with e | e
        · exact hkd (congrArg Fin.val e)
        · have := congrArg Fin.val e
          simp only at this
          omega

/-- A cell with two candidates is unsolved. -/
theorem pair_unsolved {s : Solver} (h : Inv s) (hset : Settled s) {b : Fin 3} {c : Nat} (hc : c < 27)
    (hp : IsPair s.poss b c) : s.unsolved[b].getLsbD c = true := by
  by_contra hh
  obtain ⟨d1, d2, h12, hp1, hp2, _⟩ := hp
  obtain ⟨i, hi, hor⟩ := h.marks b c hc (by simpa using hh)
  have hL : LoneIn s.prev[i] c := by
    rcases hor with hL | ⟨hz, hL⟩
    · exact hL
    · have := hL.lone.1
      rw [hset i hz] at this; simp at this
  have h1 : sb d1 b = i := by
    by_contra hne
    have := h.solved2 i (sb d1 b) hne (by rw [sb_mod, hi]) c hc hL
    rw [hp1] at this; cases this
  have h2 : sb d2 b = i := by
    by_contra hne
    have := h.solved2 i (sb d2 b) hne (by rw [sb_mod, hi]) c hc hL
    rw [hp2] at this; cases this
  have := (sb_inj (h1.trans h2.symm)).1
  omega

theorem guessBivalue_spec {fuel N limit : Nat} {rec : Solver → Solutions → Res Solutions} (hrec : RecOk N limit rec)
    (hfuel : N < fuel) {s : Solver} (h : Inv s) (hset : Settled s) (hpairs : ∀ b, PairsOk s b)
    (hN : psi s ≤ N) {acc : Solutions} (hl : acc.len ≤ limit) (bs : List (Fin 3)) :
    Solver.guessBivalue fuel rec s limit acc bs = .ok none ∨
    ∃ r, SearchSpec (Sol s.poss) limit acc r ∧
      Solver.guessBivalue fuel rec s limit acc bs = (do .ok (some (← r))) := by
  induction bs with
  | nil => exact Or.inl rfl
  | cons b bs ih =>
    unfold Solver.guessBivalue
    cases hm : maskIter s.pairs[b] with
    | nil => exact ih
    | cons m ms =>
      right
      have hmem : m ∈ maskIter s.pairs[b] := by rw [hm]; exact List.mem_cons_self
      obtain ⟨c, hcp, rfl⟩ := mem_maskIter.1 hmem
      obtain ⟨hc, hpair⟩ := hpairs b c hcp
      have hu := pair_unsolved h hset hc hpair
      obtain ⟨d1, d2, h12, hp1, hp2, hun⟩ := hpair
      have := bivalueLoop_spec hrec hfuel hc h hset hN hu h12 hp1 hp2 hun hl 10 0 (by omega) (by omega)
      rw [Nat.zero_mul, Nat.zero_add] at this
      exact ⟨_, this, rfl⟩

theorem bestGuess_aux (s : Solver) (bs : List (Fin 3)) (best : Option (Nat × Fin 3 × Mask))
    (hbest : ∀ x, best = some x → ∃ c, s.unsolved[x.2.1].getLsbD c = true ∧ x.2.2 = BitVec.twoPow 32 c)
    (hne : best ≠ none ∨ ∃ b ∈ bs, s.unsolved[b] ≠ 0) :
    ∃ n b c, bs.foldl (fun best b =>
      match maskIter s.unsolved[b] with
      | [] => best
      | m :: _ =>
        let x := (s.candCount b m, b, m)
        match best with
        | none => some x
        | some y => if guessLe y x then some y else some x) best = some (n, b, BitVec.twoPow 32 c) ∧
      s.unsolved[b].getLsbD c = true := by
  induction bs generalizing best with
  | nil =>
    rcases hne with hne | ⟨b, hb, _⟩
    · cases best with
      | none => exact absurd rfl hne
      | some x =>
        obtain ⟨c, h1, h2⟩ := hbest x rfl
        exact ⟨x.1, x.2.1, c, by rw [List.foldl_nil, ← h2], h1⟩
    · cases hb
  | cons b bs ih =>
    rw [List.foldl_cons]
    cases hm : maskIter s.unsolved[b] with
    | nil =>
      apply ih _ hbest
      rcases hne with hne | ⟨b', hb', hu'⟩
      · exact Or.inl hne
      · rcases List.mem_cons.1 hb' with e | e
        · subst e; exact absurd (maskIter_eq_nil.1 hm) hu'
        · exact Or.inr ⟨b', e, hu'⟩
    | cons m ms =>
      have hmem : m ∈ maskIter s.unsolved[b] := by rw [hm]; exact List.mem_cons_self
      obtain ⟨c, hcp, rfl⟩ := mem_maskIter.1 hmem
      apply ih
      · intro x hx
        cases best with
        | none =>
          simp only [Option.some.injEq] at hx
          subst hx
          exact ⟨c, hcp, rfl⟩
        | some y =>
          simp only at hx
          split at hx
          · simp only [Option.some.injEq] at hx
            subst hx
            exact hbest y rfl
          · simp only [Option.some.injEq] at hx
            subst hx
            exact ⟨c, hcp, rfl⟩
      · left
        cases best with
        | none => simp
        | some y => simp only; split <;> simp

theorem guess_spec {fuel : Nat} (limit : Nat) (depth : Nat) :
    depth ≤ fuel → RecOk depth limit (fun s acc => Solver.guess fuel depth s limit acc) := by
  induction depth with
  | zero => intro _ s acc _ h; omega
  | succ depth ih =>
    intro hdf s acc hG hpsi hl
    have hrec := ih (by omega)
    simp only
    unfold Solver.guess
    by_cases hs : s.isSolved = true
    · simp only [hs, if_true, hl, decide_true, Res.assert_true, Res.ok_bind]
      exact record_spec hG hs hl
    · simp only [hs]
      have hsf : s.isSolved = false := by simpa using hs
      rw [if_neg (by simp)]
      have hset := hG.clean.settled
      rcases guessBivalue_spec (fuel := fuel) hrec (by omega) hG.inv hset (hG.pairs hsf) (by omega) (le_of_lt hl) (List.finRange 3)
        with he | ⟨r, hr, he⟩
      · rw [he, Res.ok_bind]
        simp only
        unfold Solver.guessSomeCell
        have hex : ∃ b ∈ List.finRange 3, s.unsolved[b] ≠ 0 := by
          by_contra hno
          apply hs
          rw [isSolved_iff]
          intro b
          by_contra hb
          exact hno ⟨b, List.mem_finRange b, hb⟩
        obtain ⟨n, b, c, hbg, hu⟩ := bestGuess_aux s (List.finRange 3) none (by simp) (Or.inr hex)
        have hbg' : s.bestGuess = some (n, b, BitVec.twoPow 32 c) := hbg
        rw [hbg']
        simp only
        have hc : c < 27 := by
          by_contra hh
          rw [hG.inv.u27 b c (by omega)] at hu; cases hu
        exact someCellLoop_spec hrec (by omega) hc (List.finRange 9) s acc hG.inv hset (by omega) hu
          (fun d _ => List.mem_finRange d) (le_of_lt hl)
      · obtain ⟨L, rfl, hL⟩ := hr
        rw [he]
        simp only [Res.ok_bind]
        exact ⟨L, rfl, hL⟩

theorem run_spec {fuel : Nat} {s : Solver} (h : Inv s) (hpsi : psi s < fuel) {limit : Nat} {acc : Solutions}
    (hl : acc.len ≤ limit) : SearchSpec (Sol s.poss) limit acc (s.run fuel limit acc) := by
  unfold Solver.run
  have hp := findNakedSingles_post h
  generalize s.findNakedSingles = r at hp
  match r, hp with
  | .ok (s', ap), hp =>
    simp only
    have h1 : Ins s s' := hp.1
    have hpsi' : psi s' < fuel := lt_of_le_of_lt h1.psi hpsi
    exact (solveThen_spec (guess_spec limit fuel le_rfl) h1.inv (Or.inl hpsi') hpsi' hl).congr
      fun t => ⟨fun ht => ht.mono h1.sub, h1.sol t⟩
  | .err, hp => exact SearchSpec.nil hl (Or.inr hp)

end Verif.FastSolver
