import Verif.Proofs.UpdateSpec
import Verif.Proofs.Post
import Verif.Proofs.SolvedGrid

/-! Invariant of the solver state, and preservation by the deduction steps. -/
namespace Verif.FastSolver

/-- `t` is a solved grid all of whose entries are still candidates. -/
def Sol (p : Vector Mask 27) (t : Grid) : Prop :=
  Solved t ∧ ∀ (i : Fin 27) (x : Fin 81), x.val / 27 = i.val % 3 → t[x].toNat = i.val / 3 + 1 →
    p[i].getLsbD (x.val % 27) = true

/-- Candidate arrays, pointwise inclusion. -/
def PSub (p p' : Vector Mask 27) : Prop := ∀ i : Fin 27, MSub p[i] p'[i]

theorem PSub.refl (p : Vector Mask 27) : PSub p p := fun _ _ h => h
theorem PSub.trans {p q r : Vector Mask 27} (h : PSub p q) (h' : PSub q r) : PSub p r :=
  fun i c hc => h' i c (h i c hc)

theorem Sol.mono {p p' : Vector Mask 27} {t : Grid} (h : Sol p t) (hs : PSub p p') : Sol p' t :=
  ⟨h.1, fun i x hx ht => hs i _ (h.2 i x hx ht)⟩

theorem bandConflict_iff {c c' : Nat} : bandConflict c c' = true ↔ c / 9 = c' / 9 ∨ c % 9 / 3 = c' % 9 / 3 := by
  simp [bandConflict]

theorem bandConflict_symm {c c' : Nat} : bandConflict c c' = true ↔ bandConflict c' c = true := by
  rw [bandConflict_iff, bandConflict_iff]
  constructor <;> (rintro (h | h) <;> simp [h])

theorem Sol.placement {p : Vector Mask 27} {t : Grid} (h : Sol p t) (i : Fin 27) :
    ∃ x : Fin 3 → Fin 81, (∀ r, (x r).val / 27 = i.val % 3) ∧ (∀ r, t[x r].toNat = i.val / 3 + 1) ∧
      (∀ r, (x r).val % 27 / 9 = r.val) ∧
      Placement p[i] ((x 0).val % 27) ((x 1).val % 27) ((x 2).val % 27) := by
  choose x hx hv using fun r : Fin 3 =>
    h.1.exists_row ⟨i.val % 3 * 3 + r.val, by omega⟩ ⟨i.val / 3, by omega⟩
  simp only at hx hv
  have hb : ∀ r, (x r).val / 27 = i.val % 3 := fun r => by have := hx r; omega
  have hr : ∀ r, (x r).val % 27 / 9 = r.val := fun r => by have := hx r; omega
  have hd : ∀ r r', r ≠ r' → (x r).val % 27 % 9 / 3 ≠ (x r').val % 27 % 9 / 3 := by
    intro r r' hne he
    have hsame : SameHouse (x r) (x r') := by
      right; right
      have := hx r; have := hx r'
      simp only [blockOf, rowOf, colOf]
      omega
    have heq := h.1.inj hsame (by rw [hv, hv])
    apply hne
    have h1 := hr r; have h2 := hr r'
    rw [heq] at h1
    exact Fin.ext (by omega)
  have ho : ∀ r, p[i].getLsbD ((x r).val % 27) = true := fun r => h.2 i (x r) (hb r) (hv r)
  exact ⟨x, hb, hv, hr, hr 0, hr 1, hr 2, ho 0, ho 1, ho 2, hd 0 1 (by decide), hd 0 2 (by decide),
    hd 1 2 (by decide)⟩

theorem UpdateSpec.sol {s s' : Solver} {i : Fin 27} {q : Mask} (u : UpdateSpec s s' i q)
    {t : Grid} (h : Sol s.poss t) : Sol s'.poss t := by
  refine ⟨h.1, fun n y hy hty => ?_⟩
  obtain ⟨x, hb, hv, hr, hP⟩ := h.placement i
  have hQ := u.placement _ _ _ hP
  have hqx : ∀ r : Fin 3, q.getLsbD ((x r).val % 27) = true := by
    intro r
    rcases lt3_cases r.isLt with e | e | e
    · rw [show r = 0 from Fin.ext e]; exact hQ.o0
    · rw [show r = 1 from Fin.ext e]; exact hQ.o1
    · rw [show r = 2 from Fin.ext e]; exact hQ.o2
  have hyp := h.2 n y hy hty
  have hy27 : y.val % 27 < 27 := Nat.mod_lt _ (by omega)
  by_cases hni : n = i
  · subst hni
    rw [u.self]
    -- the cell `y` is one of the placement cells
    have : y = x ⟨y.val % 27 / 9, by omega⟩ := by
      apply h.1.inj
      · left
        have h1 := hb ⟨y.val % 27 / 9, by omega⟩
        have h2 := hr ⟨y.val % 27 / 9, by omega⟩
        simp only at h2
        simp only [rowOf]
        omega
      · rw [hty, hv]
    rw [this]
    exact hqx _
  · by_cases hd : n.val / 3 = i.val / 3
    · rw [u.digit n hni hd _ hy27]
      refine ⟨hyp, fun hO => ?_⟩
      -- some placement cell lies in the stack of `y`
      have hst : ∃ r : Fin 3, (x r).val % 27 % 9 / 3 = y.val % 27 % 9 / 3 := by
        have := hP.d01; have := hP.d02; have := hP.d12
        have : (x 0).val % 27 % 9 / 3 = y.val % 27 % 9 / 3 ∨ (x 1).val % 27 % 9 / 3 = y.val % 27 % 9 / 3 ∨
          (x 2).val % 27 % 9 / 3 = y.val % 27 % 9 / 3 := by omega
        rcases this with e | e | e
        · exact ⟨_, e⟩
        · exact ⟨_, e⟩
        · exact ⟨_, e⟩
      obtain ⟨r, hr'⟩ := hst
      have hcol := hO.2 ((x r).val % 27) (Nat.mod_lt _ (by omega)) (hqx r) hr'
      have heq : x r = y := by
        apply h.1.inj
        · right; left; simp only [colOf]; omega
        · rw [hv, hty, hd]
      have h1 := hb r
      rw [heq] at h1
      exact hni (Fin.ext (by omega))
    · by_cases hm : n.val % 3 = i.val % 3
      · rw [u.band n hni hm _ hy27]
        refine ⟨hyp, fun hL => ?_⟩
        have h1 := hr ⟨y.val % 27 / 9, by omega⟩
        have h3 := hb ⟨y.val % 27 / 9, by omega⟩
        simp only at h1
        have := hL.2 _ (Nat.mod_lt _ (by omega)) (hqx ⟨y.val % 27 / 9, by omega⟩)
          (bandConflict_iff.2 (Or.inl h1))
        have heq : x ⟨y.val % 27 / 9, by omega⟩ = y := Fin.ext (by omega)
        have h2 := hv ⟨y.val % 27 / 9, by omega⟩
        have h4 : t[x ⟨y.val % 27 / 9, by omega⟩].toNat = t[y].toNat :=
          congrArg (fun z : Fin 81 => t[z].toNat) heq
        omega
      · rw [u.other n hd hm]; exact hyp

/-- Cell `c` of subband `i` is placed: no remaining candidate conflicts with it. -/
structure LoneP (p : Vector Mask 27) (i : Fin 27) (c : Nat) : Prop where
  lone : LoneIn p[i] c
  col : ∀ n : Fin 27, n ≠ i → n.val / 3 = i.val / 3 → ∀ c' < 27, p[n].getLsbD c' = true → c' % 9 ≠ c % 9
  cell : ∀ n : Fin 27, n ≠ i → n.val % 3 = i.val % 3 → p[n].getLsbD c = false

/-- Invariant of all solver states. -/
structure Inv (s : Solver) : Prop where
  weird : s.weird[0] = ALL
  p27 : ∀ i : Fin 27, ∀ c ≥ 27, s.poss[i].getLsbD c = false
  u27 : ∀ b : Fin 3, ∀ c ≥ 27, s.unsolved[b].getLsbD c = false
  sub : ∀ i : Fin 27, s.prev[i] ≠ 0 → MSub s.poss[i] s.prev[i]
  rowFull : ∀ i : Fin 27, s.prev[i] ≠ 0 → RowFull s.prev[i]
  blockFull : ∀ i : Fin 27, s.prev[i] ≠ 0 → BlockFull s.prev[i]
  prev27 : ∀ i : Fin 27, ∀ c ≥ 27, s.prev[i].getLsbD c = false
  neigh : ∀ i n : Fin 27, s.prev[i] ≠ 0 → n ≠ i → n.val / 3 = i.val / 3 → ∀ c < 27,
    s.poss[n].getLsbD c = true → ¬ OnlyColIn s.prev[i] (c % 9)
  solved1 : ∀ i : Fin 27, ∀ b : Fin 3, b.val = i.val % 3 → ∀ c < 27, LoneIn s.prev[i] c →
    s.unsolved[b].getLsbD c = false
  solved2 : ∀ i n : Fin 27, n ≠ i → n.val % 3 = i.val % 3 → ∀ c < 27, LoneIn s.prev[i] c →
    s.poss[n].getLsbD c = false
  marks : ∀ b : Fin 3, ∀ c < 27, s.unsolved[b].getLsbD c = false → ∃ i : Fin 27, i.val % 3 = b.val ∧
    (LoneIn s.prev[i] c ∨ (s.prev[i] = 0 ∧ LoneP s.poss i c))

theorem LoneIn.lt {q : Mask} {c : Nat} (h : LoneIn q c) (hq : ∀ c ≥ 27, q.getLsbD c = false) : c < 27 := by
  by_contra hc
  have := hq c (by omega)
  rw [h.1] at this; cases this

theorem LoneIn.ne_zero {q : Mask} {c : Nat} (h : LoneIn q c) : q ≠ 0 := ne_zero_of_getLsbD h.1

theorem LoneIn.shrink {q q' : Mask} {c : Nat} (h : LoneIn q c) (hs : MSub q' q) (hr : RowFull q')
    (hc : c < 27) : LoneIn q' c := by
  obtain ⟨c', hc', hq, hrow⟩ := hr (c / 9) (by omega)
  have := h.2 c' hc' (hs _ hq) (bandConflict_iff.2 (Or.inl hrow))
  subst this
  exact ⟨hq, fun c'' h1 h2 h3 => h.2 c'' h1 (hs _ h2) h3⟩

/-- A state in which every subband has been looked at, or is empty. -/
def Settled (s : Solver) : Prop := ∀ i : Fin 27, s.prev[i] = 0 → s.poss[i] = 0

theorem UpdateSpec.inv {s s' : Solver} {i : Fin 27} {q : Mask} (u : UpdateSpec s s' i q) (h : Inv s) : Inv s' := by
  have hq27 : ∀ c ≥ 27, q.getLsbD c = false := by
    intro c hc
    by_contra hq
    have := u.sub c (by simpa using hq)
    rw [h.p27 i c hc] at this; cases this
  have hprev : ∀ n : Fin 27, s'.prev[n] = if n = i then q else s.prev[n] := by
    intro n; rw [u.prev, set_get]
  have hni : ∀ n : Fin 27, n ≠ i → s'.prev[n] = s.prev[n] := fun n hn => by rw [hprev, if_neg hn]
  have hii : s'.prev[i] = q := by rw [hprev, if_pos rfl]
  refine
    { weird := by rw [u.weird]; exact h.weird
      p27 := ?_, u27 := ?_, sub := ?_, rowFull := ?_, blockFull := ?_, prev27 := ?_, neigh := ?_
      solved1 := ?_, solved2 := ?_, marks := ?_ }
  · intro n c hc
    by_contra hp
    have := u.mono n c (by simpa using hp)
    rw [h.p27 n c hc] at this; cases this
  · intro b c hc
    by_contra hp
    have := u.unsolved_mono b c (by simpa using hp)
    rw [h.u27 b c hc] at this; cases this
  · intro n hn
    by_cases e : n = i
    · subst e; rw [hii, u.self]; exact fun _ h => h
    · rw [hni n e] at hn ⊢
      exact fun c hc => h.sub n hn c (u.mono n c hc)
  · intro n hn
    by_cases e : n = i
    · subst e; rw [hii]; exact u.rowFull
    · rw [hni n e] at hn ⊢; exact h.rowFull n hn
  · intro n hn
    by_cases e : n = i
    · subst e; rw [hii]; exact u.blockFull
    · rw [hni n e] at hn ⊢; exact h.blockFull n hn
  · intro n c hc
    by_cases e : n = i
    · subst e; rw [hii]; exact hq27 c hc
    · rw [hni n e]; exact h.prev27 n c hc
  · intro n m hn hmn hd c hc hp
    by_cases e : n = i
    · subst e; rw [hii]
      exact ((u.digit m hmn hd c hc).1 hp).2
    · rw [hni n e] at hn ⊢
      exact h.neigh n m hn hmn hd c hc (u.mono m c hp)
  · intro n b hb c hc hL
    by_cases e : n = i
    · subst e; rw [hii] at hL
      by_contra hu
      exact ((u.unsolved b c hc).1 (by simpa using hu)).2 ⟨hb, hL⟩
    · rw [hni n e] at hL
      have := h.solved1 n b hb c hc hL
      by_contra hu
      rw [u.unsolved_mono b c (by simpa using hu)] at this; cases this
  · intro n m hmn hb c hc hL
    by_cases e : n = i
    · subst e; rw [hii] at hL
      by_contra hu
      exact ((u.band m hmn hb c hc).1 (by simpa using hu)).2 hL
    · rw [hni n e] at hL
      have := h.solved2 n m hmn hb c hc hL
      by_contra hu
      rw [u.mono m c (by simpa using hu)] at this; cases this
  · intro b c hc hu
    by_cases hu0 : s.unsolved[b].getLsbD c = true
    · -- newly solved
      by_cases hx : b.val = i.val % 3 ∧ LoneIn q c
      · exact ⟨i, hx.1.symm, Or.inl (by rw [hii]; exact hx.2)⟩
      · have := (u.unsolved b c hc).2 ⟨hu0, hx⟩
        rw [hu] at this; cases this
    · obtain ⟨n, hn, hor⟩ := h.marks b c hc (by simpa using hu0)
      refine ⟨n, hn, ?_⟩
      rcases hor with hL | ⟨hz, hL⟩
      · left
        by_cases e : n = i
        · subst e; rw [hii]
          refine LoneIn.shrink hL ?_ u.rowFull hc
          exact fun c hc => h.sub n hL.ne_zero c (u.sub c hc)
        · rw [hni n e]; exact hL
      · by_cases e : n = i
        · subst e; left; rw [hii]
          exact LoneIn.shrink hL.lone u.sub u.rowFull hc
        · right
          refine ⟨by rw [hni n e]; exact hz, ?_⟩
          have hin : s'.poss[n].getLsbD c = true := by
            by_cases hd : n.val / 3 = i.val / 3
            · rw [u.digit n e hd c hc]
              refine ⟨hL.lone.1, fun hO => ?_⟩
              obtain ⟨c', hc', hq', hcol⟩ := hO.1
              exact hL.col i (Ne.symm e) hd.symm c' hc' (u.sub _ hq') hcol
            · by_cases hm : n.val % 3 = i.val % 3
              · rw [u.band n e hm c hc]
                refine ⟨hL.lone.1, fun hL' => ?_⟩
                have := hL.cell i (Ne.symm e) hm.symm
                rw [u.sub _ hL'.1] at this; cases this
              · rw [u.other n hd hm]; exact hL.lone.1
          refine ⟨⟨hin, fun c' h1 h2 h3 => hL.lone.2 c' h1 (u.mono n c' h2) h3⟩, ?_, ?_⟩
          · exact fun m h1 h2 c' h3 h4 => hL.col m h1 h2 c' h3 (u.mono m c' h4)
          · intro m h1 h2
            have := hL.cell m h1 h2
            by_contra hu'
            rw [u.mono m c (by simpa using hu')] at this; cases this

end Verif.FastSolver
