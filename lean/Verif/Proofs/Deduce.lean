import Verif.Proofs.Inv
import Mathlib.Algebra.Order.BigOperators.Group.Finset
import Mathlib.Data.Fintype.BigOperators

/-! Termination and soundness of `_solve`: locked candidates and naked singles. -/
namespace Verif.FastSolver

/-! ### Measure -/

/-- Number of set bits. -/
def pop (m : Mask) : Nat := ((Finset.range 32).filter (fun c => m.getLsbD c = true)).card

theorem pop_le {a b : Mask} (h : MSub a b) : pop a ≤ pop b := by
  apply Finset.card_le_card
  intro c hc
  simp only [Finset.mem_filter] at hc ⊢
  exact ⟨hc.1, h c hc.2⟩

theorem MSub.antisymm {a b : Mask} (h : MSub a b) (h' : MSub b a) : a = b := by
  apply BitVec.eq_of_getLsbD_eq
  intro c _
  rw [Bool.eq_iff_iff]
  exact ⟨h c, h' c⟩

theorem pop_lt {a b : Mask} (h : MSub a b) (hne : a ≠ b) : pop a < pop b := by
  apply Finset.card_lt_card
  rw [Finset.ssubset_iff_subset_ne]
  constructor
  · intro c hc
    simp only [Finset.mem_filter] at hc ⊢
    exact ⟨hc.1, h c hc.2⟩
  · intro he
    apply hne
    apply h.antisymm
    intro c hc
    have : c ∈ (Finset.range 32).filter (fun c => b.getLsbD c = true) := by
      simp only [Finset.mem_filter, Finset.mem_range]
      exact ⟨BitVec.lt_of_getLsbD hc, hc⟩
    rw [← he] at this
    exact (Finset.mem_filter.1 this).2

theorem pop_le_27 {m : Mask} (h : ∀ c ≥ 27, m.getLsbD c = false) : pop m ≤ 27 := by
  have : ((Finset.range 32).filter (fun c => m.getLsbD c = true)) ⊆ Finset.range 27 := by
    intro c hc
    simp only [Finset.mem_filter, Finset.mem_range] at hc ⊢
    by_contra hh
    rw [h c (by omega)] at hc
    exact Bool.noConfusion hc.2
  exact le_trans (Finset.card_le_card this) (by simp)

/-- Contribution of one subband. -/
def psi1 (m : Mask) : Nat := if m = 0 then 28 else pop m

/-- Measure that decreases with every locked-candidates update. -/
def psi (s : Solver) : Nat := ∑ i : Fin 27, psi1 s.prev[i]

theorem UpdateSpec.psi_lt {s s' : Solver} {i : Fin 27} {q : Mask} (u : UpdateSpec s s' i q)
    (h : Inv s) (hne : s.poss[i] ≠ s.prev[i]) : psi s' < psi s := by
  have h27 : ∀ c ≥ 27, q.getLsbD c = false := by
    intro c hc
    by_contra hp
    have := u.sub c (by simpa using hp)
    rw [h.p27 i c hc] at this; cases this
  apply Finset.sum_lt_sum
  · intro n _
    rw [u.prev, set_get]
    by_cases e : n = i
    · subst e
      rw [if_pos rfl]
      unfold psi1
      rw [if_neg u.ne]
      split
      · exact le_trans (pop_le_27 h27) (by omega)
      · next hp => exact pop_le fun c hc => h.sub n hp c (u.sub c hc)
    · rw [if_neg e]
  · refine ⟨i, Finset.mem_univ _, ?_⟩
    rw [u.prev, set_get, if_pos rfl]
    unfold psi1
    rw [if_neg u.ne]
    split
    · exact lt_of_le_of_lt (pop_le_27 h27) (by omega)
    · next hp =>
      exact lt_of_le_of_lt (pop_le u.sub) (pop_lt (h.sub i hp) hne)

/-! ### Steps -/

def Clean (s : Solver) : Prop := ∀ i : Fin 27, s.poss[i] = s.prev[i]
def Dirty (s : Solver) : Prop := ∃ i : Fin 27, s.prev[i] ≠ 0 ∧ s.poss[i] ≠ s.prev[i]

theorem Clean.settled {s : Solver} (h : Clean s) : Settled s := fun i hi => by rw [h i, hi]

theorem Clean.not_dirty {s : Solver} (h : Clean s) : ¬ Dirty s := fun ⟨i, _, hi⟩ => hi (h i)

/-- A deduction step from `s` to `s'`: candidates are only removed, and never those of a
solution. -/
structure Step (s s' : Solver) : Prop where
  inv : Inv s'
  sub : PSub s'.poss s.poss
  sol : ∀ t, Sol s.poss t → Sol s'.poss t
  psi : psi s' ≤ psi s

theorem Step.refl {s : Solver} (h : Inv s) : Step s s := ⟨h, PSub.refl _, fun _ h => h, le_refl _⟩
theorem Step.trans {a b c : Solver} (h : Step a b) (h' : Step b c) : Step a c :=
  ⟨h'.inv, h'.sub.trans h.sub, fun t ht => h'.sol t (h.sol t ht), le_trans h'.psi h.psi⟩

theorem update_post {s : Solver} (h : Inv s) (i : Fin 27) (hne : s.poss[i] ≠ s.prev[i]) :
    (s.update i).Post (fun s' => Step s s' ∧ psi s' < psi s) (∀ t, ¬ Sol s.poss t) := by
  rcases update_cases s i (h.p27 i) with ⟨he, hno⟩ | ⟨s', q, he, u⟩
  · rw [he, Res.post_err]
    intro t ht
    obtain ⟨x, _, _, _, hP⟩ := ht.placement i
    exact hno _ _ _ hP
  · rw [he, Res.post_ok]
    have := u.psi_lt h hne
    exact ⟨⟨u.inv h, u.mono, fun t ht => u.sol ht, le_of_lt this⟩, this⟩

theorem weird_test {s : Solver} (h : Inv s) (i : Fin 27) : (s.weird[0] >>> (i.val / 3)) &&& LOW9 ≠ NONE := by
  apply ne_zero_of_getLsbD (i := 0)
  rw [BitVec.getLsbD_and, BitVec.getLsbD_ushiftRight, h.weird, getLsbD_ALL, getLsbD_LOW9]
  have := i.isLt
  simp; omega

theorem pass_post {s : Solver} (h : Inv s) :
    ((List.finRange 27).foldlM Solver.updateStep (s, true)).Post
      (fun r => Step s r.1 ∧ (r.2 = true → r.1 = s ∧ Clean s) ∧ (r.2 = false → psi r.1 < psi s))
      (∀ t, ¬ Sol s.poss t) := by
  have := Res.Post.foldlM (f := Solver.updateStep) (E := ∀ t, ¬ Sol s.poss t)
    (fun l r => Step s r.1 ∧ (r.2 = true → r.1 = s ∧ ∀ i, i ∉ l → s.poss[i] = s.prev[i]) ∧
      (r.2 = false → psi r.1 < psi s)) (List.finRange 27) (s, true)
    ⟨Step.refl h, fun _ => ⟨rfl, fun i hi => absurd (List.mem_finRange i) hi⟩, fun e => nomatch e⟩ ?_
  · refine this.mono ?_ id
    rintro r ⟨h1, h2, h3⟩
    exact ⟨h1, fun e => ⟨(h2 e).1, fun i => (h2 e).2 i (by simp)⟩, h3⟩
  · rintro i l ⟨s1, fn⟩ ⟨h1, h2, h3⟩
    simp only at h1 h2 h3
    unfold Solver.updateStep
    simp only
    have hw := weird_test h1.inv i
    by_cases hne : s1.poss[i] ≠ s1.prev[i]
    · rw [if_pos ⟨hw, hne⟩]
      refine Res.Post.bind ((update_post h1.inv i hne).mono (fun _ x => x) ?_) ?_
      · intro hno t ht; exact hno t (h1.sol t ht)
      · rintro s2 ⟨k1, k2⟩
        exact ⟨h1.trans k1, fun e => (nomatch e), fun _ => lt_of_lt_of_le k2 h1.psi⟩
    · rw [if_neg (fun hh => hne hh.2)]
      refine ⟨h1, fun e => ?_, h3⟩
      obtain ⟨rfl, h5⟩ := h2 e
      refine ⟨rfl, fun n hn => ?_⟩
      by_cases hni : n = i
      · subst hni; exact not_not.1 hne
      · exact h5 n (by simp [hni, hn])

theorem findLocked_post (fuel : Nat) : ∀ {s : Solver}, Inv s → psi s < fuel →
    (s.findLocked fuel).Post
      (fun s' => Step s s' ∧ Clean s' ∧ (Dirty s → psi s' < psi s)) (∀ t, ¬ Sol s.poss t) := by
  induction fuel with
  | zero => intro s _ h; omega
  | succ fuel ih =>
    intro s h hf
    unfold Solver.findLocked
    refine (pass_post h).bind ?_
    rintro ⟨s1, fn⟩ ⟨h1, h2, h3⟩
    simp only at h1 h2 h3 ⊢
    cases fn with
    | true =>
      obtain ⟨rfl, hc⟩ := h2 rfl
      rw [if_pos rfl]
      exact ⟨h1, hc, fun hd => absurd hd hc.not_dirty⟩
    | false =>
      rw [if_neg (by simp)]
      have h4 := h3 rfl
      refine (ih h1.inv (by omega)).mono ?_ ?_
      · rintro s2 ⟨k1, k2, _⟩
        exact ⟨h1.trans k1, k2, fun _ => lt_of_le_of_lt k1.psi h4⟩
      · intro hno t ht; exact hno t (h1.sol t ht)

/-! ### Inserting a candidate -/

structure InsertSpec (s s' : Solver) (i : Fin 27) (c : Nat) : Prop where
  prev : s'.prev = s.prev
  unsolved : s'.unsolved = s.unsolved
  weird : s'.weird = s.weird
  pairs : s'.pairs = s.pairs
  other : ∀ n : Fin 27, n ≠ i → s'.poss[n] = s.poss[n]
  mono : PSub s'.poss s.poss
  self : ∀ x < 27, (s'.poss[i].getLsbD x = true ↔
    s.poss[i].getLsbD x = true ∧ (x = c ∨ bandConflict x c = false))

theorem selfMask_spec (x : Nat) (hx : x < 81) : ∃ v : Mask, nonconflictingCellsSameBand x = .ok v ∧
    ∀ c < 27, (v.getLsbD c = true ↔ (c = x % 27 ∨ bandConflict c (x % 27) = false)) := by
  obtain ⟨v, h1, h2⟩ := lookup_spec self_table hx
  refine ⟨_, h1, fun c hc => ?_⟩
  have := List.all_eq_true.1 h2 c (List.mem_range.2 hc)
  rw [getLsbD_ofNat32 (by omega), beq_iff_eq.1 this]
  simp

theorem insert_spec {s : Solver} {i : Fin 27} {c : Nat} (hc : c < 27) (hp : s.poss[i].getLsbD c = true) :
    ∃ s', s.insertCandidateByMask i (BitVec.twoPow 32 c) = .ok s' ∧ InsertSpec s s' i c := by
  have hc32 : c < 32 := by omega
  obtain ⟨v, hv, hvb⟩ := selfMask_spec (i.val % 3 * 27 + c) (by omega)
  refine ⟨{ s with poss := andAt s.poss i v }, ?_, rfl, rfl, rfl, rfl, ?_, ?_, ?_⟩
  · unfold Solver.insertCandidateByMask
    have h2 : s.poss[i] &&& BitVec.twoPow 32 c ≠ 0 := by
      intro h0
      rw [and_twoPow_eq_zero hc32, hp] at h0; cases h0
    rw [maskIter_twoPow hc32, bitPos_twoPow hc32]
    simp only [List.length_singleton, decide_true, Res.assert_true, Res.ok_bind, h2, ne_eq,
      not_false_eq_true, hv]
  · intro n hn
    simp only [andAt_get, if_neg hn]
  · intro n x
    simp only [andAt_get]
    split
    · rw [BitVec.getLsbD_and, Bool.and_eq_true]; exact And.left
    · exact id
  · intro x hx
    simp only [andAt_get, if_true]
    rw [BitVec.getLsbD_and, Bool.and_eq_true, hvb x hx, show (i.val % 3 * 27 + c) % 27 = c by omega]

/-- General preservation of the invariant when candidates disappear from `poss` only. -/
theorem Inv.of_sub {s s' : Solver} (h : Inv s) (hprev : s'.prev = s.prev)
    (huns : s'.unsolved = s.unsolved) (hweird : s'.weird = s.weird) (hsub : PSub s'.poss s.poss)
    (hm : ∀ i c, c < 27 → s.prev[i] = 0 → LoneP s.poss i c → s'.poss[i].getLsbD c = true) : Inv s' := by
  have hf : ∀ {i : Fin 27} {c}, s.poss[i].getLsbD c = false → s'.poss[i].getLsbD c = false := by
    intro i c hp
    by_contra hh
    rw [hsub i c (by simpa using hh)] at hp; cases hp
  refine
    { weird := by rw [hweird]; exact h.weird
      p27 := fun i c hc => hf (h.p27 i c hc)
      u27 := by rw [huns]; exact h.u27
      sub := by rw [hprev]; exact fun i hi c hc => h.sub i hi c (hsub i c hc)
      rowFull := by rw [hprev]; exact h.rowFull
      blockFull := by rw [hprev]; exact h.blockFull
      prev27 := by rw [hprev]; exact h.prev27
      neigh := by rw [hprev]; exact fun i n h1 h2 h3 c h4 h5 => h.neigh i n h1 h2 h3 c h4 (hsub n c h5)
      solved1 := by rw [hprev, huns]; exact h.solved1
      solved2 := by rw [hprev]; exact fun i n h1 h2 c h3 h4 => hf (h.solved2 i n h1 h2 c h3 h4)
      marks := ?_ }
  rw [huns, hprev]
  intro b c hc hu
  obtain ⟨i, hi, hor⟩ := h.marks b c hc hu
  refine ⟨i, hi, hor.imp_right ?_⟩
  rintro ⟨hz, hL⟩
  refine ⟨hz, ⟨hm i c hc hz hL, fun c' h1 h2 h3 => hL.lone.2 c' h1 (hsub i c' h2) h3⟩, ?_, ?_⟩
  · exact fun m h1 h2 c' h3 h4 => hL.col m h1 h2 c' h3 (hsub m c' h4)
  · exact fun m h1 h2 => hf (hL.cell m h1 h2)

theorem InsertSpec.inv {s s' : Solver} {i : Fin 27} {c : Nat} (u : InsertSpec s s' i c) (h : Inv s)
    (hc : c < 27) (hp : s.poss[i].getLsbD c = true) : Inv s' := by
  refine h.of_sub u.prev u.unsolved u.weird u.mono ?_
  intro n x hx _ hL
  by_cases hn : n = i
  · subst hn
    rw [u.self x hx]
    refine ⟨hL.lone.1, ?_⟩
    by_cases hb : bandConflict x c = true
    · exact Or.inl (hL.lone.2 c hc hp (bandConflict_symm.1 hb)).symm
    · exact Or.inr (by simpa using hb)
  · rw [u.other n hn]; exact hL.lone.1

theorem InsertSpec.psi {s s' : Solver} {i : Fin 27} {c : Nat} (u : InsertSpec s s' i c) :
    FastSolver.psi s' = FastSolver.psi s := by unfold FastSolver.psi; rw [u.prev]

theorem InsertSpec.sol {s s' : Solver} {i : Fin 27} {c : Nat} (u : InsertSpec s s' i c) {t : Grid}
    (h : Sol s.poss t) {x : Fin 81} (hx : x.val / 27 = i.val % 3) (hxc : x.val % 27 = c)
    (ht : t[x].toNat = i.val / 3 + 1) : Sol s'.poss t := by
  refine ⟨h.1, fun n y hy hty => ?_⟩
  have hp := h.2 n y hy hty
  by_cases hn : n = i
  · subst hn
    rw [u.self _ (Nat.mod_lt _ (by omega))]
    refine ⟨hp, ?_⟩
    by_cases hb : bandConflict (y.val % 27) c = true
    · left
      have : y = x := by
        apply h.1.inj _ (by rw [ht, hty])
        rw [bandConflict_iff] at hb
        rcases hb with hb | hb
        · left; simp only [rowOf]; omega
        · right; right; simp only [blockOf, rowOf, colOf]; omega
      rw [this, hxc]
    · right; simpa using hb
  · rw [u.other n hn]; exact hp

theorem InsertSpec.sol_val {s s' : Solver} {i : Fin 27} {c : Nat} (u : InsertSpec s s' i c) {t : Grid}
    (h : Sol s'.poss t) {x : Fin 81} (hx : x.val / 27 = i.val % 3) (hxc : x.val % 27 = c) :
    t[x].toNat = i.val / 3 + 1 := by
  obtain ⟨y, hy, hyv⟩ := h.1.exists_row ⟨x.val / 9, by omega⟩ ⟨i.val / 3, by omega⟩
  simp only at hy hyv
  have hp := h.2 i y (by omega) hyv
  rw [u.self _ (Nat.mod_lt _ (by omega))] at hp
  have hyx : y = x := by
    rcases hp.2 with e | e
    · exact Fin.ext (by omega)
    · rw [← Bool.not_eq_true, bandConflict_iff] at e
      exact absurd (Or.inl (by omega)) e
  subst hyx; exact hyv

/-- Inserting into an unsolved cell of a cleaned-up state is not a no-op. -/
theorem InsertSpec.dirty {s s' : Solver} {i : Fin 27} {c : Nat} (u : InsertSpec s s' i c)
    (h : Inv s) (hc : c < 27) (hp : s.prev[i].getLsbD c = true) (hL : ¬ LoneIn s.prev[i] c) : Dirty s' := by
  refine ⟨i, ?_, fun he => hL ⟨hp, fun x hx hxp hb => ?_⟩⟩
  · rw [u.prev]; exact ne_zero_of_getLsbD hp
  · rw [u.prev] at he
    rw [← he, u.self x hx] at hxp
    rcases hxp.2 with e | e
    · exact e
    · rw [hb] at e; cases e

end Verif.FastSolver
