import Verif.Proofs.Deduce

/-! Naked singles and the `_solve` loop. -/
namespace Verif.FastSolver

/-- Number of candidates of cell `c` of band `b`. -/
def ncand (p : Vector Mask 27) (b : Fin 3) (c : Nat) (ds : List (Fin 9)) : Nat :=
  ds.countP fun d => p[sb d b].getLsbD c

theorem scan_aux (p : Vector Mask 27) (b : Fin 3) (c : Nat) (ds : List (Fin 9)) :
    ∀ (x1 x2 x3 : Mask) (n : Nat), x1.getLsbD c = decide (1 ≤ n) → x2.getLsbD c = decide (2 ≤ n) →
      x3.getLsbD c = decide (3 ≤ n) →
      let r := ds.foldl (fun ((c1, c2, c3) : Mask × Mask × Mask) d =>
        let m := p[sb d b]
        (c1 ||| m, c2 ||| (c1 &&& m), c3 ||| (c2 &&& m))) (x1, x2, x3)
      r.1.getLsbD c = decide (1 ≤ n + ncand p b c ds) ∧
      r.2.1.getLsbD c = decide (2 ≤ n + ncand p b c ds) ∧
      r.2.2.getLsbD c = decide (3 ≤ n + ncand p b c ds) := by
  induction ds with
  | nil => intro x1 x2 x3 n h1 h2 h3; exact ⟨h1, h2, h3⟩
  | cons d ds ih =>
    intro x1 x2 x3 n h1 h2 h3
    simp only [List.foldl_cons]
    by_cases hd : p[sb d b].getLsbD c = true
    · have e : n + ncand p b c (d :: ds) = (n + 1) + ncand p b c ds := by
        simp only [ncand, List.countP_cons, hd, if_true]; omega
      rw [e]
      apply ih
      · simp only [BitVec.getLsbD_or, hd, Bool.or_true]; simp
      · simp only [BitVec.getLsbD_or, BitVec.getLsbD_and, hd, h1, h2, Bool.and_true]
        by_cases h : 1 ≤ n <;> simp [h]; omega
      · simp only [BitVec.getLsbD_or, BitVec.getLsbD_and, hd, h2, h3, Bool.and_true]
        by_cases h : 2 ≤ n <;> simp [h] <;> omega
    · rw [Bool.not_eq_true] at hd
      have e : n + ncand p b c (d :: ds) = n + ncand p b c ds := by
        simp only [ncand, List.countP_cons, hd]; simp
      rw [e]
      apply ih
      · simp only [BitVec.getLsbD_or, hd, Bool.or_false]; exact h1
      · simp only [BitVec.getLsbD_or, BitVec.getLsbD_and, hd, Bool.and_false, Bool.or_false]; exact h2
      · simp only [BitVec.getLsbD_or, BitVec.getLsbD_and, hd, Bool.and_false, Bool.or_false]; exact h3

theorem scanBand_spec (p : Vector Mask 27) (b : Fin 3) (c : Nat) :
    (scanBand p b).1.getLsbD c = decide (1 ≤ ncand p b c (List.finRange 9)) ∧
    (scanBand p b).2.1.getLsbD c = decide (2 ≤ ncand p b c (List.finRange 9)) ∧
    (scanBand p b).2.2.getLsbD c = decide (3 ≤ ncand p b c (List.finRange 9)) := by
  have := scan_aux p b c (List.finRange 9) NONE NONE NONE 0 (by simp [NONE]) (by simp [NONE]) (by simp [NONE])
  simp only [Nat.zero_add] at this
  exact this

/-- Exactly one digit is possible in the cell. -/
def IsSingle (p : Vector Mask 27) (b : Fin 3) (c : Nat) : Prop :=
  ∃ d : Fin 9, p[sb d b].getLsbD c = true ∧ ∀ d', p[sb d' b].getLsbD c = true → d' = d

/-- Exactly two digits are possible in the cell. -/
def IsPair (p : Vector Mask 27) (b : Fin 3) (c : Nat) : Prop :=
  ∃ d1 d2 : Fin 9, d1 < d2 ∧ p[sb d1 b].getLsbD c = true ∧ p[sb d2 b].getLsbD c = true ∧
    ∀ d', p[sb d' b].getLsbD c = true → d' = d1 ∨ d' = d2

theorem isSingle_of_ncand {p : Vector Mask 27} {b : Fin 3} {c : Nat}
    (h : ncand p b c (List.finRange 9) = 1) : IsSingle p b c := by
  unfold ncand at h
  rw [List.countP_eq_length_filter, List.length_eq_one_iff] at h
  obtain ⟨d, hd⟩ := h
  have key : ∀ d', p[sb d' b].getLsbD c = true ↔ d' = d := by
    intro d'
    have : d' ∈ (List.finRange 9).filter (fun d => p[sb d b].getLsbD c) ↔ d' ∈ [d] := by rw [hd]
    simpa using this
  exact ⟨d, (key d).2 rfl, fun d' h' => (key d').1 h'⟩

theorem isPair_of_ncand {p : Vector Mask 27} {b : Fin 3} {c : Nat}
    (h : ncand p b c (List.finRange 9) = 2) : IsPair p b c := by
  unfold ncand at h
  rw [List.countP_eq_length_filter, List.length_eq_two] at h
  obtain ⟨d1, d2, hd⟩ := h
  have key : ∀ d', p[sb d' b].getLsbD c = true ↔ d' = d1 ∨ d' = d2 := by
    intro d'
    have : d' ∈ (List.finRange 9).filter (fun d => p[sb d b].getLsbD c) ↔ d' ∈ [d1, d2] := by rw [hd]
    simpa using this
  have hp : List.Pairwise (· < ·) [d1, d2] := by
    rw [← hd]
    exact List.Pairwise.filter _ (List.pairwise_lt_finRange 9)
  have : d1 < d2 := by simpa using hp
  exact ⟨d1, d2, this, (key d1).2 (Or.inl rfl), (key d2).2 (Or.inr rfl), fun d' h' => (key d').1 h'⟩

theorem sb_div (d : Fin 9) (b : Fin 3) : (sb d b).val / 3 = d.val := by simp only [sb]; omega
theorem sb_mod (d : Fin 9) (b : Fin 3) : (sb d b).val % 3 = b.val := by simp only [sb]; omega
theorem sb_inj {d d' : Fin 9} {b b' : Fin 3} (h : sb d b = sb d' b') : d = d' ∧ b = b' := by
  have h1 := congrArg (fun i : Fin 27 => i.val / 3) h
  have h2 := congrArg (fun i : Fin 27 => i.val % 3) h
  simp only [sb_div, sb_mod] at h1 h2
  exact ⟨Fin.ext h1, Fin.ext h2⟩

/-- In a solution, every cell of a band holds some candidate. -/
theorem Sol.cell {p : Vector Mask 27} {t : Grid} (h : Sol p t) (b : Fin 3) {c : Nat} (hc : c < 27) :
    ∃ d : Fin 9, t[(⟨b.val * 27 + c, by omega⟩ : Fin 81)].toNat = d.val + 1 ∧ p[sb d b].getLsbD c = true := by
  obtain ⟨d, hd⟩ := h.1.digit ⟨b.val * 27 + c, by omega⟩
  refine ⟨d, hd, ?_⟩
  have := h.2 (sb d b) ⟨b.val * 27 + c, by omega⟩ (by rw [sb_mod]; simp only; omega) (by rw [sb_div]; exact hd)
  simp only at this
  rwa [show (b.val * 27 + c) % 27 = c by omega] at this

/-- What a sequence of insertions keeps. -/
structure Ins (s s' : Solver) : Prop extends Step s s' where
  prev : s'.prev = s.prev
  unsolved : s'.unsolved = s.unsolved

theorem Inv.pairs {s : Solver} (h : Inv s) (v : Vector Mask 3) : Inv { s with pairs := v } :=
  ⟨h.weird, h.p27, h.u27, h.sub, h.rowFull, h.blockFull, h.prev27, h.neigh, h.solved1, h.solved2, h.marks⟩

theorem applySingle_post {s0 s : Solver} (hI : Ins s0 s) {b : Fin 3} {c : Nat} (hc : c < 27)
    (hs : IsSingle s0.poss b c) (hu : s0.unsolved[b].getLsbD c = true) :
    (s.applySingle b (BitVec.twoPow 32 c)).Post
      (fun s' => Ins s0 s' ∧ s'.pairs = s.pairs ∧ (Clean s0 → Dirty s')) (∀ t, ¬ Sol s0.poss t) := by
  have hc32 : c < 32 := by omega
  obtain ⟨d0, hd0, huniq⟩ := hs
  unfold Solver.applySingle
  split
  · next d heq =>
    have hd := List.find?_some heq
    have hpd : s.poss[sb d b].getLsbD c = true := by
      by_contra hh
      rw [Bool.not_eq_true, ← and_twoPow_eq_zero hc32] at hh
      exact (of_decide_eq_true hd) hh
    have hdd : d = d0 := huniq d (hI.sub _ _ hpd)
    subst hdd
    obtain ⟨s', he, u⟩ := insert_spec hc hpd
    rw [he, Res.post_ok]
    have hsol : ∀ t, Sol s0.poss t → Sol s'.poss t := by
      intro t ht
      obtain ⟨d', h1, h2⟩ := ht.cell b hc
      have := huniq d' h2
      subst this
      refine u.sol (hI.sol t ht) (x := ⟨b.val * 27 + c, by omega⟩) ?_ ?_ (by rw [sb_div]; exact h1)
      · rw [sb_mod]; simp only; omega
      · simp only; omega
    refine ⟨⟨⟨u.inv hI.inv hc hpd, u.mono.trans hI.sub, hsol, by rw [u.psi]; exact hI.psi⟩,
      by rw [u.prev, hI.prev], by rw [u.unsolved, hI.unsolved]⟩, u.pairs, fun hcl => ?_⟩
    have hp : s.prev[sb d b].getLsbD c = true := by
      rw [hI.prev, ← hcl]; exact hd0
    refine u.dirty hI.inv hc hp ?_
    intro hL
    have := hI.inv.solved1 (sb d b) b (sb_mod d b).symm c hc hL
    rw [hI.unsolved, hu] at this; cases this
  · next heq =>
    rw [Res.post_err]
    intro t ht
    obtain ⟨d, _, h2⟩ := (hI.sol t ht).cell b hc
    have := List.find?_eq_none.1 heq d (List.mem_finRange d)
    apply this
    simp only [decide_eq_true_eq, ne_eq]
    intro h0
    have := (and_twoPow_eq_zero (m := s.poss[sb d b]) hc32).1 h0
    rw [h2] at this; cases this

/-- The recorded pairs of band `b` are cells with exactly two candidates. -/
def PairsOk (s : Solver) (b : Fin 3) : Prop := ∀ c, s.pairs[b].getLsbD c = true → c < 27 ∧ IsPair s.poss b c

theorem scan_all {p : Vector Mask 27} {b : Fin 3} (h : (scanBand p b).1 = ALL) {c : Nat} (hc : 27 ≤ c) :
    ncand p b c (List.finRange 9) = 0 := by
  have h1 := (scanBand_spec p b c).1
  rw [h, getLsbD_ALL] at h1
  simp only [show ¬ c < 27 by omega, decide_false] at h1
  have := of_decide_eq_false h1.symm
  omega

theorem nakedSinglesBand_post {s : Solver} (h : Inv s) (ap : Bool) (b : Fin 3) :
    (Solver.nakedSinglesBand (s, ap) b).Post
      (fun r => Ins s r.1 ∧ (r.2 = false → ap = false ∧ r.1.poss = s.poss ∧ PairsOk r.1 b) ∧
        (∀ b', b' ≠ b → r.1.pairs[b'] = s.pairs[b']) ∧ (Clean s → ap = false → r.2 = true → Dirty r.1) ∧
        (ap = true → r.2 = true))
      (∀ t, ¬ Sol s.poss t) := by
  unfold Solver.nakedSinglesBand
  simp only
  generalize hsc : scanBand s.poss b = sc
  obtain ⟨c1, c2, c3⟩ := sc
  have hspec := scanBand_spec s.poss b
  rw [hsc] at hspec
  simp only at hspec ⊢
  by_cases hall : c1 = ALL
  · rw [if_neg (by simp [hall])]
    have hz : ∀ c, 27 ≤ c → ncand s.poss b c (List.finRange 9) = 0 := fun c hc =>
      scan_all (by rw [hsc]; exact hall) hc
    set s0 : Solver := { s with pairs := s.pairs.set b (c2 ^^^ c3) } with hs0
    have hI0 : Ins s s0 := ⟨⟨h.pairs _, PSub.refl _, fun _ h => h, le_refl _⟩, rfl, rfl⟩
    have hpairs : PairsOk s0 b := by
      intro c hp
      have hp' : (c2 ^^^ c3).getLsbD c = true := by
        have : s0.pairs[b] = c2 ^^^ c3 := by simp only [hs0]; rw [set_get, if_pos rfl]
        rwa [this] at hp
      rw [BitVec.getLsbD_xor, (hspec c).2.1, (hspec c).2.2] at hp'
      have hn : ncand s.poss b c (List.finRange 9) = 2 := by
        by_cases h2 : 2 ≤ ncand s.poss b c (List.finRange 9)
        · by_cases h3 : 3 ≤ ncand s.poss b c (List.finRange 9)
          · simp [h2, h3] at hp'
          · omega
        · have h3 : ¬ 3 ≤ ncand s.poss b c (List.finRange 9) := by omega
          simp [h2, h3] at hp'
      refine ⟨?_, isPair_of_ncand hn⟩
      by_contra hh
      rw [hz c (by omega)] at hn; cases hn
    have hsing : ∀ m ∈ maskIter ((c1 ^^^ c2) &&& s.unsolved[b]), ∃ c < 27, m = BitVec.twoPow 32 c ∧
        IsSingle s.poss b c ∧ s.unsolved[b].getLsbD c = true := by
      intro m hm
      obtain ⟨c, hc, rfl⟩ := mem_maskIter.1 hm
      rw [BitVec.getLsbD_and, Bool.and_eq_true, BitVec.getLsbD_xor, (hspec c).1, (hspec c).2.1] at hc
      have hn : ncand s.poss b c (List.finRange 9) = 1 := by
        by_cases h2 : 1 ≤ ncand s.poss b c (List.finRange 9)
        · by_cases h3 : 2 ≤ ncand s.poss b c (List.finRange 9)
          · simp [h2, h3] at hc
          · omega
        · have h3 : ¬ 2 ≤ ncand s.poss b c (List.finRange 9) := by omega
          simp [h2, h3] at hc
      refine ⟨c, ?_, rfl, isSingle_of_ncand hn, hc.2⟩
      by_contra hh
      rw [hz c (by omega)] at hn; cases hn
    generalize hl : maskIter ((c1 ^^^ c2) &&& s.unsolved[b]) = L at hsing
    have hfold := Res.Post.foldlM (f := fun s m => Solver.applySingle s b m) (E := ∀ t, ¬ Sol s.poss t)
      (fun l s' => Ins s s' ∧ s'.pairs = s0.pairs ∧ (∀ m ∈ l, m ∈ L) ∧ (l = L ∧ s' = s0 ∨ (L ≠ [] ∧ (Clean s → Dirty s')))) L s0
      ⟨hI0, rfl, fun _ h => h, Or.inl ⟨rfl, rfl⟩⟩ (by
        rintro m l s' ⟨k1, k2, k3, k4⟩
        obtain ⟨c, hc, rfl, k5, k6⟩ := hsing m (k3 m (by simp))
        refine (applySingle_post k1 hc k5 k6).mono ?_ id
        rintro s'' ⟨j1, j2, j3⟩
        refine ⟨j1, by rw [j2, k2], fun x hx => k3 x (by simp [hx]), Or.inr ⟨?_, j3⟩⟩
        intro hnil
        have := k3 _ (List.mem_cons_self)
        rw [hnil] at this; cases this)
    have hnext : ∀ s' : Solver, Ins s s' ∧ s'.pairs = s0.pairs ∧ (∀ m ∈ ([] : List Mask), m ∈ L) ∧
        (([] : List Mask) = L ∧ s' = s0 ∨ (L ≠ [] ∧ (Clean s → Dirty s'))) →
        Res.Post (.ok (s', ap || !L.isEmpty)) (fun r => Ins s r.1 ∧ (r.2 = false → ap = false ∧ r.1.poss = s.poss ∧ PairsOk r.1 b) ∧
        (∀ b', b' ≠ b → r.1.pairs[b'] = s.pairs[b']) ∧ (Clean s → ap = false → r.2 = true → Dirty r.1) ∧
        (ap = true → r.2 = true)) (∀ t, ¬ Sol s.poss t) := by
      rintro s' ⟨k1, k2, _, k4⟩
      rw [Res.post_ok]
      simp only
      refine ⟨k1, ?_, ?_, ?_, ?_⟩
      · intro hf
        rw [Bool.or_eq_false_iff] at hf
        rcases k4 with ⟨_, rfl⟩ | ⟨k4, _⟩
        · exact ⟨hf.1, rfl, hpairs⟩
        · cases L with
          | nil => exact absurd rfl k4
          | cons a l => simp at hf
      · intro b' hb'
        rw [k2]
        simp only [hs0]
        rw [set_get, if_neg hb']
      · intro hcl hap hr
        rcases k4 with ⟨rfl, _⟩ | ⟨_, k5⟩
        · rw [hap] at hr; simp at hr
        · exact k5 hcl
      · intro hap; simp [hap]
    exact Res.Post.bind hfold hnext
  · rw [if_pos hall, Res.post_err]
    intro t ht
    apply hall
    apply BitVec.eq_of_getLsbD_eq
    intro c _
    rw [(hspec c).1, getLsbD_ALL]
    by_cases hc : c < 27
    · obtain ⟨d, _, h2⟩ := ht.cell b hc
      have : 0 < ncand s.poss b c (List.finRange 9) := by
        unfold ncand
        rw [List.countP_pos_iff]
        exact ⟨d, List.mem_finRange d, h2⟩
      simp [hc, show 1 ≤ ncand s.poss b c (List.finRange 9) by omega]
    · have : ncand s.poss b c (List.finRange 9) = 0 := by
        unfold ncand
        rw [List.countP_eq_zero]
        intro d _
        rw [h.p27 _ c (by omega)]; simp
      simp [this, hc]

theorem Ins.trans {a b c : Solver} (h : Ins a b) (h' : Ins b c) : Ins a c :=
  ⟨h.toStep.trans h'.toStep, by rw [h'.prev, h.prev], by rw [h'.unsolved, h.unsolved]⟩

theorem Dirty.ins {s s' : Solver} (h : Dirty s) (hI : Inv s) (hs : Ins s s') : Dirty s' := by
  obtain ⟨i, h1, h2⟩ := h
  refine ⟨i, by rw [hs.prev]; exact h1, fun he => h2 ?_⟩
  rw [hs.prev] at he
  apply (hI.sub i h1).antisymm
  rw [← he]; exact hs.sub i

theorem findNakedSingles_post {s : Solver} (h : Inv s) :
    s.findNakedSingles.Post
      (fun r => Ins s r.1 ∧ (Clean s → r.2 = true → Dirty r.1) ∧
        (r.2 = false → r.1.poss = s.poss ∧ ∀ b, PairsOk r.1 b))
      (∀ t, ¬ Sol s.poss t) := by
  unfold Solver.findNakedSingles
  have := Res.Post.foldlM (f := Solver.nakedSinglesBand) (E := ∀ t, ¬ Sol s.poss t)
    (fun l r => l.Nodup ∧ Ins s r.1 ∧ (Clean s → r.2 = true → Dirty r.1) ∧
        (r.2 = false → r.1.poss = s.poss ∧ ∀ b, b ∉ l → PairsOk r.1 b)) (List.finRange 3) (s, false)
    ⟨List.nodup_finRange 3, ⟨Step.refl h, rfl, rfl⟩, fun _ e => (nomatch e),
      fun _ => ⟨rfl, fun b hb => absurd (List.mem_finRange b) hb⟩⟩ ?_
  · refine this.mono ?_ id
    rintro r ⟨_, h1, h2, h3⟩
    exact ⟨h1, h2, fun e => ⟨(h3 e).1, fun b => (h3 e).2 b (by simp)⟩⟩
  · rintro b l ⟨s1, ap⟩ ⟨h0, h1, h2, h3⟩
    simp only at h1 h2 h3
    refine (nakedSinglesBand_post h1.inv ap b).mono ?_ ?_
    · rintro ⟨s2, ap2⟩ ⟨k1, k2, k3, k4, k5⟩
      simp only at k1 k2 k3 k4 k5 ⊢
      refine ⟨(List.nodup_cons.1 h0).2, h1.trans k1, ?_, ?_⟩
      · intro hcl hap2
        cases ap with
        | true => exact (h2 hcl rfl).ins h1.inv k1
        | false =>
          refine k4 ?_ rfl hap2
          intro i
          rw [h1.prev, (h3 rfl).1]; exact hcl i
      · intro hap2
        obtain ⟨e1, e2, e3⟩ := k2 hap2
        obtain ⟨e4, e5⟩ := h3 e1
        refine ⟨by rw [e2, e4], fun b' hb' => ?_⟩
        by_cases hbb : b' = b
        · subst hbb; exact e3
        · have := e5 b' (by simp [hbb, hb'])
          unfold PairsOk at this ⊢
          rw [k3 b' hbb, e2]; exact this
    · intro hno t ht
      exact hno t (h1.sol t ht)

/-- A state on which `guess` is called. -/
structure GuessState (s : Solver) : Prop where
  inv : Inv s
  clean : Clean s
  pairs : s.isSolved = false → ∀ b, PairsOk s b

theorem isSolved_iff {s : Solver} : s.isSolved = true ↔ ∀ b : Fin 3, s.unsolved[b] = 0 := by
  unfold Solver.isSolved
  rw [decide_eq_true_eq]
  constructor
  · intro h b
    rw [h]; simp [NONE]
  · intro h
    apply Vector.ext
    intro i hi
    have := h ⟨i, hi⟩
    simp only [Fin.getElem_fin] at this
    rw [this]; simp [NONE]

theorem pop_pos {m : Mask} (h : m ≠ 0) : 0 < pop m := by
  obtain ⟨c, hc⟩ := exists_getLsbD h
  apply Finset.card_pos.2
  refine ⟨c, ?_⟩
  simp only [Finset.mem_filter, Finset.mem_range]
  exact ⟨BitVec.lt_of_getLsbD hc, hc⟩

theorem Dirty.psi_pos {s : Solver} (h : Dirty s) : 0 < psi s := by
  obtain ⟨i, hi, hne⟩ := h
  have h1 : 0 < pop s.prev[i] := pop_pos hi
  have h2 : psi1 s.prev[i] ≤ psi s := by
    unfold psi
    exact Finset.single_le_sum (f := fun i : Fin 27 => psi1 s.prev[i]) (fun _ _ => Nat.zero_le _) (Finset.mem_univ i)
  unfold psi1 at h2
  rw [if_neg hi] at h2
  omega

theorem solveLoop_post (fuel0 fuel : Nat) : ∀ {s : Solver}, Inv s → psi s < fuel0 →
    (psi s < fuel ∨ (Dirty s ∧ psi s ≤ fuel)) →
    (s.solveLoop fuel0 fuel).Post
      (fun s' => Step s s' ∧ GuessState s' ∧ (Dirty s → psi s' < psi s)) (∀ t, ¬ Sol s.poss t) := by
  induction fuel with
  | zero =>
    intro s h _ hf
    rcases hf with hf | ⟨hd, hf⟩
    · omega
    · have := hd.psi_pos; omega
  | succ fuel ih =>
    intro s h hf0 hf
    unfold Solver.solveLoop
    refine (findLocked_post fuel0 h hf0).bind ?_
    rintro s1 ⟨h1, h2, h3⟩
    by_cases hsol : s1.isSolved = true
    · rw [if_pos hsol]
      exact ⟨h1, ⟨h1.inv, h2, fun e => by rw [hsol] at e; cases e⟩, h3⟩
    · rw [if_neg hsol]
      refine Res.Post.bind ((findNakedSingles_post h1.inv).mono (fun _ h => h) ?_) ?_
      · intro hno t ht; exact hno t (h1.sol t ht)
      · rintro ⟨s2, ap⟩ ⟨k1, k2, k3⟩
        simp only at k1 k2 k3 ⊢
        have hpsi : psi s2 = psi s1 := by unfold psi; rw [k1.prev]
        cases ap with
        | false =>
          rw [if_neg (by simp)]
          refine ⟨h1.trans k1.toStep, ⟨k1.inv, ?_, fun _ => (k3 rfl).2⟩, fun hd => by rw [hpsi]; exact h3 hd⟩
          intro i
          rw [(k3 rfl).1, k1.prev]; exact h2 i
        | true =>
          rw [if_pos rfl]
          have hd2 := k2 h2 rfl
          have hle : psi s2 ≤ fuel := by
            rw [hpsi]
            rcases hf with hf | ⟨hd, hf⟩
            · have := h1.psi; omega
            · have := h3 hd; omega
          refine (ih k1.inv (by rw [hpsi]; have := h1.psi; omega) (Or.inr ⟨hd2, hle⟩)).mono ?_ ?_
          · rintro s3 ⟨j1, j2, j3⟩
            refine ⟨(h1.trans k1.toStep).trans j1, j2, fun _ => ?_⟩
            have := j3 hd2
            have := h1.psi
            omega
          · intro hno t ht
            exact hno t (k1.sol t (h1.sol t ht))

end Verif.FastSolver
