import Verif.Proofs.Search

/-! Setting up the solver state from the clues. -/
namespace Verif.FastSolver

/-- Effect of `insert_candidate` for cell `c` of the band of subband `i`. -/
structure ClueSpec (s s' : Solver) (i : Fin 27) (c : Nat) : Prop where
  was : s.poss[i].getLsbD c = true
  prev : s'.prev = s.prev
  weird : s'.weird = s.weird
  unsolved : ∀ b : Fin 3, ∀ x < 27, (s'.unsolved[b].getLsbD x = true ↔
    s.unsolved[b].getLsbD x = true ∧ ¬ (b.val = i.val % 3 ∧ x = c))
  unsolved_mono : ∀ b : Fin 3, MSub s'.unsolved[b] s.unsolved[b]
  mono : PSub s'.poss s.poss
  self : ∀ x < 27, (s'.poss[i].getLsbD x = true ↔
    s.poss[i].getLsbD x = true ∧ (x = c ∨ bandConflict x c = false))
  digit : ∀ n : Fin 27, n ≠ i → n.val / 3 = i.val / 3 → ∀ x < 27,
    (s'.poss[n].getLsbD x = true ↔ s.poss[n].getLsbD x = true ∧ x % 9 ≠ c % 9)
  band : ∀ n : Fin 27, n ≠ i → n.val % 3 = i.val % 3 → ∀ x < 27,
    (s'.poss[n].getLsbD x = true ↔ s.poss[n].getLsbD x = true ∧ x ≠ c)
  other : ∀ n : Fin 27, n.val / 3 ≠ i.val / 3 → n.val % 3 ≠ i.val % 3 → s'.poss[n] = s.poss[n]

theorem colmask_bits : ∀ k < 9, ∀ x < 27,
    (ALL ^^^ ((0o001001001 : Mask) <<< k)).getLsbD x = decide (x % 9 ≠ k) := by decide +kernel

theorem neighborMask_spec (cell : Nat) (x : Nat) (hx : x < 27) :
    (nonconflictingCellsNeighborBands cell).getLsbD x = true ↔ x % 9 ≠ cell % 9 := by
  unfold nonconflictingCellsNeighborBands
  rw [colmask_bits (cell % 9) (Nat.mod_lt _ (by omega)) x hx]; simp

theorem getLsbD_shift_one {c x : Nat} (hc : c < 27) : ((1 : Mask) <<< c) = BitVec.twoPow 32 c := by
  rw [BitVec.twoPow_eq]; rfl

theorem insertCandidate_cases (s : Solver) (hlt : ∀ i : Fin 27, ∀ c ≥ 27, s.poss[i].getLsbD c = false)
    (cell : Fin 81) (d : Fin 9) (b : Fin 3) (hbv : b.val = cell.val / 27) :
    (s.insertCandidate cell (d.val + 1) = .err ∧ s.poss[sb d b].getLsbD (cell.val % 27) = false) ∨
    ∃ s', s.insertCandidate cell (d.val + 1) = .ok s' ∧ ClueSpec s s' (sb d b) (cell.val % 27) := by
  have hb : cell.val / 27 < 3 := by omega
  have hc : cell.val % 27 < 27 := Nat.mod_lt _ (by omega)
  have hsbl : (d.val + 1 - 1) * 3 + cell.val / 27 < 27 := by omega
  have hsb : (⟨(d.val + 1 - 1) * 3 + cell.val / 27, hsbl⟩ : Fin 27) = sb d b :=
    Fin.ext (by simp only [sb]; omega)
  have hbd : (⟨cell.val / 27, hb⟩ : Fin 3) = b := Fin.ext hbv.symm
  obtain ⟨v, hv, hvb⟩ := selfMask_spec cell.val cell.isLt
  obtain ⟨n1, n2, hn, hn1, hn2, hn3, hn4, hn5⟩ := neighborSubbands_spec (sb d b).val (sb d b).isLt
  by_cases hp : s.poss[sb d b].getLsbD (cell.val % 27) = true
  · right
    set i := sb d b with hi
    set c := cell.val % 27 with hcd
    set om := nonconflictingCellsNeighborBands cell.val with hom
    have hcm : ((1 : Mask) <<< (cell.val % 27)) = BitVec.twoPow 32 c := getLsbD_shift_one hc (x := 0)
    have him : i.val % 3 = b.val := by rw [hi, sb_mod]
    let p4 := andBand (andAt (andAt (andAt s.poss i v) n1 om) n2 om) b (~~~(BitVec.twoPow 32 c)) none
    refine ⟨{ s with
        poss := p4.set i (p4[i] ||| BitVec.twoPow 32 c)
        unsolved := andAt s.unsolved b (~~~(BitVec.twoPow 32 c)) }, ?_, ?_⟩
    · unfold Solver.insertCandidate
      simp only [show (1 ≤ d.val + 1) by omega, decide_true, Res.assert_true, Res.ok_bind]
      rw [dif_pos ⟨hsbl, hb⟩]
      simp only [hcm]
      have h1 : ¬ (s.poss[(⟨(d.val + 1 - 1) * 3 + cell.val / 27, hsbl⟩ : Fin 27)] &&& BitVec.twoPow 32 c = NONE) := by
        simp only [hsb]
        exact (and_ne_iff hc).2 hp
      rw [if_neg h1]
      have h2 : neighborSubbands ((d.val + 1 - 1) * 3 + cell.val / 27) = .ok (n1, n2) := by
        have : (sb d b).val = (d.val + 1 - 1) * 3 + cell.val / 27 := by simp only [sb]; omega
        rw [← this]; exact hn
      simp only [hv, h2, Res.ok_bind]
      have hval : (d.val + 1 - 1) * 3 + cell.val / 27 = i.val := congrArg Fin.val hsb
      simp only [hsb, hbd, hval]
      rfl
    · have hget : ∀ n : Fin 27, n ≠ i → (p4.set i (p4[i] ||| BitVec.twoPow 32 c))[n] =
          if n.val % 3 = i.val % 3 then s.poss[n] &&& ~~~(BitVec.twoPow 32 c)
          else if n.val / 3 = i.val / 3 then s.poss[n] &&& om
          else s.poss[n] := by
        intro n hni
        rw [set_get, if_neg hni]
        simp only [p4]
        rw [andBand_get, andAt_get, andAt_get, andAt_get, if_neg hni]
        by_cases hm : n.val % 3 = i.val % 3
        · have x1 : n ≠ n1 := by rintro rfl; exact hn3 (by omega)
          have x2 : n ≠ n2 := by rintro rfl; exact hn4 (by omega)
          simp [hm, x1, x2, him]
        · by_cases hd : n.val / 3 = i.val / 3
          · have hn12 : n = n1 ∨ n = n2 := by
              have : n.val ≠ i.val := fun e => hni (Fin.ext e)
              have : n1.val ≠ n2.val := fun e => hn5 (Fin.ext e)
              have : n.val = n1.val ∨ n.val = n2.val := by omega
              rcases this with e | e
              · exact Or.inl (Fin.ext e)
              · exact Or.inr (Fin.ext e)
            rw [him] at hm ⊢
            rcases hn12 with rfl | rfl
            · simp [hm, hd, hn5]
            · simp [hm, hd, Ne.symm hn5]
          · have x1 : n ≠ n1 := by rintro rfl; exact hd hn1
            have x2 : n ≠ n2 := by rintro rfl; exact hd hn2
            rw [him] at hm ⊢
            simp [hm, hd, x1, x2]
      have hself : (p4.set i (p4[i] ||| BitVec.twoPow 32 c))[i] =
          (s.poss[i] &&& v &&& ~~~(BitVec.twoPow 32 c)) ||| BitVec.twoPow 32 c := by
        rw [set_get, if_pos rfl]
        have x1 : i ≠ n1 := by rintro rfl; exact hn3 rfl
        have x2 : i ≠ n2 := by rintro rfl; exact hn4 rfl
        simp only [p4]
        rw [andBand_get, andAt_get, andAt_get, andAt_get, if_neg x2, if_neg x1, if_pos rfl, if_pos ⟨him, by simp⟩]
      have hself' : ∀ x < 27, ((p4.set i (p4[i] ||| BitVec.twoPow 32 c))[i].getLsbD x = true ↔
          s.poss[i].getLsbD x = true ∧ (x = c ∨ bandConflict x c = false)) := by
        intro x hx
        rw [hself, BitVec.getLsbD_or, BitVec.getLsbD_and, BitVec.getLsbD_and, getLsbD_not27 _ _ hx,
          getLsbD_twoPow_of_lt (by omega)]
        by_cases hxc : x = c
        · rw [hxc]
          have hp' : s.poss[i].getLsbD c = true := hp
          simp only [hp', decide_true, Bool.or_true, true_and, true_or]
        · have : c ≠ x := Ne.symm hxc
          simp only [this, decide_false, Bool.or_false, Bool.not_false, Bool.and_true, Bool.and_eq_true, hvb x hx]
      refine ⟨hp, rfl, rfl, ?_, ?_, ?_, hself', ?_, ?_, ?_⟩
      · intro b' x hx
        simp only [andAt_get]
        by_cases hbb : b' = b
        · have : b'.val = i.val % 3 := by rw [hbb, him]
          simp only [if_pos hbb, this, true_and]
          rw [BitVec.getLsbD_and, Bool.and_eq_true, getLsbD_not27 _ _ hx, getLsbD_twoPow_of_lt (by omega)]
          simp only [Bool.not_eq_true', decide_eq_false_iff_not, ne_eq, eq_comm (a := c)]
        · have : ¬ b'.val = i.val % 3 := fun e => hbb (Fin.ext (by omega))
          simp [if_neg hbb, this]
      · intro b' x
        simp only [andAt_get]
        split
        · rw [BitVec.getLsbD_and, Bool.and_eq_true]; exact And.left
        · exact id
      · intro n x
        by_cases hni : n = i
        · subst hni
          intro hx
          by_cases hx27 : x < 27
          · exact ((hself' x hx27).1 hx).1
          · exfalso
            have h0 := hlt i x (by omega)
            simp only [hself] at hx
            rw [BitVec.getLsbD_or, BitVec.getLsbD_and, BitVec.getLsbD_and, h0,
              getLsbD_twoPow_of_lt (by omega)] at hx
            simp at hx
            omega
        · simp only [hget n hni]
          split
          · rw [BitVec.getLsbD_and, Bool.and_eq_true]; exact And.left
          · split
            · rw [BitVec.getLsbD_and, Bool.and_eq_true]; exact And.left
            · exact id
      · intro n hni hd x hx
        have hm : n.val % 3 ≠ i.val % 3 := fun e => hni (Fin.ext (by omega))
        simp only [hget n hni, if_neg hm, if_pos hd]
        rw [BitVec.getLsbD_and, Bool.and_eq_true, hom, neighborMask_spec _ _ hx]
        have : cell.val % 9 = c % 9 := by omega
        rw [this]
      · intro n hni hm x hx
        simp only [hget n hni, if_pos hm]
        rw [BitVec.getLsbD_and, Bool.and_eq_true, getLsbD_not27 _ _ hx, getLsbD_twoPow_of_lt (by omega)]
        simp only [Bool.not_eq_true', decide_eq_false_iff_not, ne_eq, eq_comm (a := c)]
      · intro n hd hm
        have hni : n ≠ i := by rintro rfl; exact hd rfl
        simp only [hget n hni, if_neg hm, if_neg hd]
  · left
    refine ⟨?_, by simpa using hp⟩
    unfold Solver.insertCandidate
    simp only [show (1 ≤ d.val + 1) by omega, decide_true, Res.assert_true, Res.ok_bind]
    rw [dif_pos ⟨hsbl, hb⟩]
    have hcm : ((1 : Mask) <<< (cell.val % 27)) = BitVec.twoPow 32 (cell.val % 27) := getLsbD_shift_one hc (x := 0)
    simp only [hcm]
    have h1 : (s.poss[(⟨(d.val + 1 - 1) * 3 + cell.val / 27, hsbl⟩ : Fin 27)] &&&
        BitVec.twoPow 32 (cell.val % 27) = NONE) := by
      simp only [hsb]
      by_contra hne
      exact hp ((and_ne_iff hc).1 hne)
    rw [if_pos h1]

theorem ClueSpec.sol {s s' : Solver} {i : Fin 27} {c : Nat} (u : ClueSpec s s' i c) {x : Fin 81}
    (hx : x.val / 27 = i.val % 3) (hxc : x.val % 27 = c) (t : Grid) :
    Sol s'.poss t ↔ Sol s.poss t ∧ t[x].toNat = i.val / 3 + 1 := by
  constructor
  · intro h
    refine ⟨h.mono u.mono, ?_⟩
    obtain ⟨y, hy, hyv⟩ := h.1.exists_row ⟨x.val / 9, by omega⟩ ⟨i.val / 3, by omega⟩
    simp only at hy hyv
    have hp := h.2 i y (by omega) hyv
    rw [u.self _ (Nat.mod_lt _ (by omega))] at hp
    have hyx : y = x := by
      rcases hp.2 with e | e
      · exact Fin.ext (by omega)
      · rw [← Bool.not_eq_true, bandConflict_iff] at e
        exact absurd (Or.inl (by omega)) e
    subst hyx; exact hyv
  · rintro ⟨h, hv⟩
    refine ⟨h.1, fun n y hy hty => ?_⟩
    have hp := h.2 n y hy hty
    have hy27 : y.val % 27 < 27 := Nat.mod_lt _ (by omega)
    by_cases hn : n = i
    · subst hn
      rw [u.self _ hy27]
      refine ⟨hp, ?_⟩
      by_cases hb : bandConflict (y.val % 27) c = true
      · left
        have : y = x := by
          apply h.1.inj _ (by rw [hv, hty])
          rw [bandConflict_iff] at hb
          rcases hb with hb | hb
          · left; simp only [rowOf]; omega
          · right; right; simp only [blockOf, rowOf, colOf]; omega
        rw [this, hxc]
      · right; simpa using hb
    · by_cases hd : n.val / 3 = i.val / 3
      · rw [u.digit n hn hd _ hy27]
        refine ⟨hp, fun e => hn ?_⟩
        have : y = x := by
          apply h.1.inj _ (by rw [hv, hty, hd])
          right; left; simp only [colOf]; omega
        subst this
        exact Fin.ext (by omega)
      · by_cases hm : n.val % 3 = i.val % 3
        · rw [u.band n hn hm _ hy27]
          refine ⟨hp, fun e => hd ?_⟩
          have : y = x := Fin.ext (by omega)
          subst this
          omega
        · rw [u.other n hd hm]; exact hp

theorem LoneIn.not_zero {c : Nat} (h : LoneIn (0 : Mask) c) : False := h.ne_zero rfl

theorem ClueSpec.inv {s s' : Solver} {i : Fin 27} {c : Nat} (u : ClueSpec s s' i c) (h : Inv s)
    (hc : c < 27) (hprev : ∀ n : Fin 27, s.prev[n] = 0) : Inv s' := by
  have hprev' : ∀ n : Fin 27, s'.prev[n] = 0 := by rw [u.prev]; exact hprev
  have hf : ∀ {n : Fin 27} {x}, s.poss[n].getLsbD x = false → s'.poss[n].getLsbD x = false := by
    intro n x hp
    by_contra hh
    rw [u.mono n x (by simpa using hh)] at hp; cases hp
  refine
    { weird := by rw [u.weird]; exact h.weird
      p27 := fun n x hx => hf (h.p27 n x hx)
      u27 := ?_
      sub := fun n hn => absurd (hprev' n) hn
      rowFull := fun n hn => absurd (hprev' n) hn
      blockFull := fun n hn => absurd (hprev' n) hn
      prev27 := fun n x hx => by rw [hprev' n]; simp
      neigh := fun n _ hn => absurd (hprev' n) hn
      solved1 := fun n b _ x _ hL => absurd hL (by rw [hprev' n]; exact LoneIn.not_zero)
      solved2 := fun n m _ _ x _ hL => absurd hL (by rw [hprev' n]; exact LoneIn.not_zero)
      marks := ?_ }
  · intro b x hx
    by_contra hh
    have := u.unsolved_mono b x (by simpa using hh)
    rw [h.u27 b x hx] at this; cases this
  · intro b x hx hu
    by_cases hnew : b.val = i.val % 3 ∧ x = c
    · obtain ⟨hb, rfl⟩ := hnew
      refine ⟨i, hb.symm, Or.inr ⟨hprev' i, ⟨(u.self x hx).2 ⟨u.was, Or.inl rfl⟩, ?_⟩, ?_, ?_⟩⟩
      · intro y hy hyp hyb
        rcases ((u.self y hy).1 hyp).2 with e | e
        · exact e
        · rw [hyb] at e; cases e
      · intro n hn hd y hy hyp
        exact ((u.digit n hn hd y hy).1 hyp).2
      · intro n hn hm
        by_contra hh
        exact ((u.band n hn hm x hx).1 (by simpa using hh)).2 rfl
    · have hu0 : s.unsolved[b].getLsbD x = false := by
        by_contra hh
        have := (u.unsolved b x hx).2 ⟨by simpa using hh, hnew⟩
        rw [hu] at this; cases this
      obtain ⟨n, hn, hor⟩ := h.marks b x hx hu0
      have hL : LoneP s.poss n x := by
        rcases hor with hL | ⟨_, hL⟩
        · rw [hprev n] at hL; exact absurd hL LoneIn.not_zero
        · exact hL
      refine ⟨n, hn, Or.inr ⟨hprev' n, ⟨?_, fun y hy hyp hyb => hL.lone.2 y hy (u.mono n y hyp) hyb⟩, ?_, ?_⟩⟩
      · by_cases hni : n = i
        · subst hni
          rw [u.self x hx]
          refine ⟨hL.lone.1, ?_⟩
          by_cases hbc : bandConflict x c = true
          · exact Or.inl (hL.lone.2 c hc u.was (bandConflict_symm.1 hbc)).symm
          · exact Or.inr (by simpa using hbc)
        · by_cases hd : n.val / 3 = i.val / 3
          · rw [u.digit n hni hd x hx]
            exact ⟨hL.lone.1, fun e => hL.col i (Ne.symm hni) hd.symm c hc u.was e.symm⟩
          · by_cases hm : n.val % 3 = i.val % 3
            · rw [u.band n hni hm x hx]
              refine ⟨hL.lone.1, fun e => ?_⟩
              have := hL.cell i (Ne.symm hni) hm.symm
              rw [e, u.was] at this; cases this
            · rw [u.other n hd hm]; exact hL.lone.1
      · exact fun m h1 h2 y h3 h4 => hL.col m h1 h2 y h3 (u.mono m y h4)
      · exact fun m h1 h2 => hf (hL.cell m h1 h2)

theorem replicate_get {α : Type} {n : Nat} (x : α) (i : Fin n) : (Vector.replicate n x)[i] = x := by
  simp

theorem init_inv : Inv Solver.init := by
  have hp : ∀ i : Fin 27, Solver.init.poss[i] = ALL := fun i => replicate_get _ i
  have hq : ∀ i : Fin 27, Solver.init.prev[i] = 0 := fun i => replicate_get _ i
  have hu : ∀ i : Fin 3, Solver.init.unsolved[i] = ALL := fun i => replicate_get _ i
  refine
    { weird := replicate_get (n := 3) ALL 0
      p27 := fun n x hx => by rw [hp, getLsbD_ALL]; simp; omega
      u27 := fun n x hx => by rw [hu, getLsbD_ALL]; simp; omega
      sub := fun n hn => absurd (hq n) hn
      rowFull := fun n hn => absurd (hq n) hn
      blockFull := fun n hn => absurd (hq n) hn
      prev27 := fun n x hx => by rw [hq n]; simp
      neigh := fun n _ hn => absurd (hq n) hn
      solved1 := fun n b _ x _ hL => absurd hL (by rw [hq n]; exact LoneIn.not_zero)
      solved2 := fun n m _ _ x _ hL => absurd hL (by rw [hq n]; exact LoneIn.not_zero)
      marks := fun b c hc h => by rw [hu, getLsbD_ALL] at h; simp at h; omega }

theorem init_sol (t : Grid) : Sol Solver.init.poss t ↔ Solved t := by
  refine ⟨And.left, fun h => ⟨h, fun i x _ _ => ?_⟩⟩
  have hp : Solver.init.poss[i] = ALL := replicate_get _ i
  rw [hp, getLsbD_ALL]; simp; omega

theorem fromSudoku_post {g : Grid} (hg : WellFormed g) :
    (fromSudoku g).Post
      (fun s => Inv s ∧ (∀ i : Fin 27, s.prev[i] = 0) ∧ ∀ t, Sol s.poss t ↔ IsSolution g t)
      (∀ t, ¬ IsSolution g t) := by
  unfold fromSudoku
  refine (Res.Post.foldlM (E := ∀ t, ¬ IsSolution g t)
    (fun l s => l.Nodup ∧ Inv s ∧ (∀ i : Fin 27, s.prev[i] = 0) ∧
      ∀ t, Sol s.poss t ↔ Solved t ∧ ∀ c, c ∉ l → g[c] ≠ 0 → t[c] = g[c])
    (List.finRange 81) Solver.init
    ⟨List.nodup_finRange 81, init_inv, fun i => replicate_get _ i, fun t => ?_⟩ ?_).mono ?_ id
  · rw [init_sol]
    exact ⟨fun h => ⟨h, fun c hc => absurd (List.mem_finRange c) hc⟩, And.left⟩
  · rintro c l s ⟨hnd, h1, h2, h3⟩
    obtain ⟨hcl, hnd'⟩ := List.nodup_cons.1 hnd
    by_cases h0 : g[c] = 0
    · simp only [h0, if_true]
      refine ⟨hnd', h1, h2, fun t => ?_⟩
      rw [h3]
      refine and_congr_right fun _ => ⟨fun h c' hc' hne => ?_, fun h c' hc' hne => ?_⟩
      · by_cases e : c' = c
        · subst e; exact absurd h0 hne
        · exact h c' (by simp [e, hc']) hne
      · exact h c' (fun hm => hc' (by simp [hm])) hne
    · rw [if_neg h0]
      have hle : g[c].toNat ≤ 9 := hg c
      have hpos : g[c].toNat ≠ 0 := fun e => h0 (UInt8.toNat_inj.1 e)
      obtain ⟨d, hd⟩ : ∃ d : Fin 9, g[c].toNat = d.val + 1 := ⟨⟨g[c].toNat - 1, by omega⟩, by simp only; omega⟩
      rw [hd]
      rcases insertCandidate_cases s h1.p27 c d ⟨c.val / 27, by omega⟩ rfl with ⟨he, hno⟩ | ⟨s', he, u⟩
      · rw [he, Res.post_err]
        rintro t ⟨ht1, ht2⟩
        have hs : Sol s.poss t := (h3 t).2 ⟨ht1, fun c' _ hne => ht2 c' hne⟩
        have := hs.2 (sb d ⟨c.val / 27, by omega⟩) c (by rw [sb_mod]) (by rw [sb_div, ht2 c h0, hd])
        rw [hno] at this; cases this
      · rw [he, Res.post_ok]
        refine ⟨hnd', u.inv h1 (Nat.mod_lt _ (by omega)) h2, by rw [u.prev]; exact h2, fun t => ?_⟩
        rw [u.sol (x := c) (by rw [sb_mod]) rfl, h3, sb_div, ← hd]
        constructor
        · rintro ⟨⟨k1, k2⟩, k3⟩
          refine ⟨k1, fun c' hc' hne => ?_⟩
          by_cases e : c' = c
          · subst e; exact UInt8.toNat_inj.1 k3
          · exact k2 c' (by simp [e, hc']) hne
        · rintro ⟨k1, k2⟩
          refine ⟨⟨k1, fun c' hc' hne => k2 c' (fun hm => hc' (by simp [hm])) hne⟩, ?_⟩
          rw [k2 c hcl h0]
  · rintro s ⟨_, h1, h2, h3⟩
    refine ⟨h1, h2, fun t => ?_⟩
    rw [h3]
    exact and_congr_right fun _ => ⟨fun h c hne => h c (by simp) hne, fun h c _ hne => h c hne⟩

end Verif.FastSolver
