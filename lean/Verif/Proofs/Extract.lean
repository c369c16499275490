import Verif.Proofs.Singles

/-! A solved state holds exactly one solution, and `extract_solution` returns it. -/
namespace Verif.FastSolver

/-- In a solved state every cell has exactly one candidate, which is placed. -/
theorem solved_cell {s : Solver} (h : Inv s) (hc : Clean s) (hs : s.isSolved = true) (b : Fin 3)
    {c : Nat} (hc27 : c < 27) : ∃ i : Fin 27, i.val % 3 = b.val ∧ LoneIn s.poss[i] c ∧
      ∀ n : Fin 27, n.val % 3 = b.val → s.poss[n].getLsbD c = true → n = i := by
  have hu := isSolved_iff.1 hs b
  obtain ⟨i, hi, hor⟩ := h.marks b c hc27 (by rw [hu]; simp)
  have hL : LoneIn s.prev[i] c := by
    rcases hor with hL | ⟨hz, hL⟩
    · exact hL
    · have := hL.lone.1
      rw [hc i, hz] at this; simp at this
  refine ⟨i, hi, by rw [hc i]; exact hL, fun n hn hp => ?_⟩
  by_contra hne
  have := h.solved2 i n hne (by omega) c hc27 hL
  rw [hp] at this; cases this

/-- `g` has the right value for every candidate of subband `i`. -/
def Written (s : Solver) (i : Fin 27) (g : Grid) : Prop :=
  ∀ x : Fin 81, x.val / 27 = i.val % 3 → s.poss[i].getLsbD (x.val % 27) = true → g[x].toNat = i.val / 3 + 1

theorem setCell_ok (g : Grid) {i : Nat} (hi : i < 81) (v : UInt8) : setCell g i v = .ok (g.set i v) := by
  unfold setCell; rw [dif_pos hi]

theorem extract_post {s : Solver} (h : Inv s) (hc : Clean s) (hs : s.isSolved = true) :
    s.extractSolution.Post (fun g => ∀ i, Written s i g) False := by
  unfold Solver.extractSolution
  have huniq : ∀ (i n : Fin 27) (c : Nat), c < 27 → i.val % 3 = n.val % 3 →
      s.poss[i].getLsbD c = true → s.poss[n].getLsbD c = true → i = n := by
    intro i n c hc27 hin h1 h2
    obtain ⟨m, _, _, h3⟩ := solved_cell h hc hs ⟨n.val % 3, by omega⟩ hc27
    rw [h3 i hin h1, h3 n rfl h2]
  refine (Res.Post.foldlM (E := False) (fun l g => ∀ i, i ∉ l → Written s i g) (List.finRange 27) _
    (fun i hi => absurd (List.mem_finRange i) hi) ?_).mono (fun g hg i => hg i (by simp)) id
  intro i l g hg
  refine (Res.Post.foldlM (E := False)
    (fun ml g => (∀ m ∈ ml, ∃ c < 27, m = BitVec.twoPow 32 c ∧ s.poss[i].getLsbD c = true) ∧
      (∀ n, n ∉ i :: l → Written s n g) ∧
      ∀ x : Fin 81, x.val / 27 = i.val % 3 → s.poss[i].getLsbD (x.val % 27) = true →
        BitVec.twoPow 32 (x.val % 27) ∈ ml ∨ g[x].toNat = i.val / 3 + 1) (maskIter s.poss[i]) g ?_ ?_).mono ?_ id
  · refine ⟨fun m hm => ?_, hg, fun x _ hx2 => Or.inl (mem_maskIter.2 ⟨_, hx2, rfl⟩)⟩
    obtain ⟨c, hcp, rfl⟩ := mem_maskIter.1 hm
    refine ⟨c, ?_, rfl, hcp⟩
    by_contra hh
    rw [h.p27 i c (by omega)] at hcp; cases hcp
  · rintro m ml g1 ⟨k1, k2, k3⟩
    obtain ⟨c, hc27, rfl, hcp⟩ := k1 m (by simp)
    have hlt : c + i.val % 3 * 27 < 81 := by omega
    rw [bitPos_twoPow (by omega), setCell_ok _ hlt, Res.post_ok]
    have hval : ((UInt8.ofNat (i.val / 3) + 1 : UInt8)).toNat = i.val / 3 + 1 := by
      rw [UInt8.toNat_add, UInt8.toNat_ofNat']
      simp only [UInt8.toNat_one]
      omega
    refine ⟨fun m hm => k1 m (by simp [hm]), fun n hn x hx hp => ?_, fun x hx hp => ?_⟩
    · simp only [Fin.getElem_fin, Vector.getElem_set]
      split
      · next e =>
        exfalso
        have hxc : x.val % 27 = c := by omega
        rw [hxc] at hp
        have := huniq n i c hc27 (by omega) hp hcp
        exact hn (by simp [this])
      · exact k2 n hn x hx hp
    · simp only [Fin.getElem_fin, Vector.getElem_set]
      split
      · exact Or.inr hval
      · next e =>
        rcases k3 x hx hp with hm | hv
        · rcases List.mem_cons.1 hm with hm | hm
          · exfalso
            have h1 := congrArg (fun m : Mask => m.getLsbD c) hm
            simp only [getLsbD_twoPow_of_lt (show c < 32 by omega),
              getLsbD_twoPow_of_lt (show x.val % 27 < 32 by omega), decide_true, decide_eq_true_eq] at h1
            omega
          · exact Or.inl hm
        · exact Or.inr hv
  · rintro g1 ⟨_, k2, k3⟩ n hn
    by_cases hni : n = i
    · subst hni
      intro x hx hp
      rcases k3 x hx hp with hm | hv
      · cases hm
      · exact hv
    · exact k2 n (by simp [hni, hn])

/-- The unique solution of a solved state is what `extract_solution` returns. -/
theorem extract_spec {s : Solver} (h : Inv s) (hc : Clean s) (hs : s.isSolved = true) :
    ∃ t, s.extractSolution = .ok t ∧ Sol s.poss t ∧ ∀ t', Sol s.poss t' → t' = t := by
  have hpost := extract_post h hc hs
  generalize s.extractSolution = r at hpost
  match r, hpost with
  | .ok t, hw =>
    rw [Res.post_ok] at hw
    have hcell : ∀ x : Fin 81, ∃ i : Fin 27, x.val / 27 = i.val % 3 ∧ t[x].toNat = i.val / 3 + 1 ∧
        LoneIn s.poss[i] (x.val % 27) ∧
        ∀ n : Fin 27, n.val % 3 = x.val / 27 → s.poss[n].getLsbD (x.val % 27) = true → n = i := by
      intro x
      obtain ⟨i, h1, h2, h3⟩ := solved_cell h hc hs ⟨x.val / 27, by omega⟩ (c := x.val % 27) (by omega)
      exact ⟨i, h1.symm, hw i x h1.symm h2.1, h2, h3⟩
    refine ⟨t, rfl, ⟨⟨fun x => ?_, fun x y hne hsame he => ?_⟩, fun i x hx hv => ?_⟩, fun t' ht' => ?_⟩
    · obtain ⟨i, _, h2, _⟩ := hcell x
      constructor
      · rw [UInt8.le_iff_toNat_le, h2]; simp
      · rw [UInt8.le_iff_toNat_le, h2]; simp; omega
    · obtain ⟨i, hi1, hi2, hi3, hi4⟩ := hcell x
      obtain ⟨j, hj1, hj2, hj3, hj4⟩ := hcell y
      rw [he, hj2] at hi2
      by_cases hij : i = j
      · subst hij
        -- same band: both cells are placed in the same subband
        have hb : ∀ h : bandConflict (y.val % 27) (x.val % 27) = true, False := by
          intro hb
          have := hi3.2 _ (Nat.mod_lt _ (by omega)) hj3.1 hb
          exact hne (Fin.ext (by omega))
        rcases hsame with hr | hcol | hbl
        · simp only [rowOf] at hr
          exact hb (bandConflict_iff.2 (Or.inl (by omega)))
        · simp only [colOf] at hcol
          exact hb (bandConflict_iff.2 (Or.inr (by omega)))
        · simp only [blockOf, rowOf, colOf] at hbl
          exact hb (bandConflict_iff.2 (Or.inr (by omega)))
      · have hbne : i.val % 3 ≠ j.val % 3 := fun e => hij (Fin.ext (by omega))
        have hcol : x.val % 9 = y.val % 9 := by
          rcases hsame with hr | hcol | hbl
          · simp only [rowOf] at hr; omega
          · exact hcol
          · simp only [blockOf, rowOf, colOf] at hbl; omega
        have hprev : s.prev[i] ≠ 0 := by
          rw [← hc i]; exact ne_zero_of_getLsbD hi3.1
        refine h.neigh i j hprev (Ne.symm hij) (by omega) (y.val % 27) (Nat.mod_lt _ (by omega)) hj3.1 ?_
        rw [← hc i]
        refine ⟨⟨x.val % 27, Nat.mod_lt _ (by omega), hi3.1, by omega⟩, fun c hc27 hp hst => ?_⟩
        have := hi3.2 c hc27 hp (bandConflict_iff.2 (Or.inr (by omega)))
        omega
    · obtain ⟨j, hj1, hj2, hj3, _⟩ := hcell x
      have : i = j := Fin.ext (by omega)
      rw [this]; exact hj3.1
    · apply Vector.ext
      intro x hx
      obtain ⟨i, hi1, hi2, hi3, hi4⟩ := hcell ⟨x, hx⟩
      obtain ⟨d, hd⟩ := ht'.1.digit ⟨x, hx⟩
      have hb : x / 27 < 3 := by omega
      have hp := ht'.2 (sb d ⟨x / 27, hb⟩) ⟨x, hx⟩ (by rw [sb_mod]) (by rw [sb_div]; exact hd)
      have := hi4 _ (by rw [sb_mod]) hp
      apply UInt8.toNat_inj.1
      have e1 : t'[x].toNat = d.val + 1 := hd
      have e2 : t[x].toNat = i.val / 3 + 1 := hi2
      rw [e1, e2, ← this, sb_div]

end Verif.FastSolver
