import Verif.Proofs.Update

/-! Specification of one call of `_find_locked_candidates_and_update`. -/
namespace Verif.FastSolver

/-- Three cells of a band, one per row and per block, all possible in `m`. -/
structure Placement (m : Mask) (c0 c1 c2 : Nat) : Prop where
  r0 : c0 / 9 = 0
  r1 : c1 / 9 = 1
  r2 : c2 / 9 = 2
  o0 : m.getLsbD c0 = true
  o1 : m.getLsbD c1 = true
  o2 : m.getLsbD c2 = true
  d01 : c0 % 9 / 3 ≠ c1 % 9 / 3
  d02 : c0 % 9 / 3 ≠ c2 % 9 / 3
  d12 : c1 % 9 / 3 ≠ c2 % 9 / 3

structure UpdateSpec (s s' : Solver) (i : Fin 27) (q : Mask) : Prop where
  ne : q ≠ 0
  sub : MSub q s.poss[i]
  rowFull : RowFull q
  blockFull : BlockFull q
  placement : ∀ c0 c1 c2, Placement s.poss[i] c0 c1 c2 → Placement q c0 c1 c2
  prev : s'.prev = s.prev.set i q
  weird : s'.weird = s.weird
  pairs : s'.pairs = s.pairs
  self : s'.poss[i] = q
  digit : ∀ n : Fin 27, n ≠ i → n.val / 3 = i.val / 3 → ∀ c < 27,
    (s'.poss[n].getLsbD c = true ↔ s.poss[n].getLsbD c = true ∧ ¬ OnlyColIn q (c % 9))
  band : ∀ n : Fin 27, n ≠ i → n.val % 3 = i.val % 3 → ∀ c < 27,
    (s'.poss[n].getLsbD c = true ↔ s.poss[n].getLsbD c = true ∧ ¬ LoneIn q c)
  other : ∀ n : Fin 27, n.val / 3 ≠ i.val / 3 → n.val % 3 ≠ i.val % 3 → s'.poss[n] = s.poss[n]
  mono : ∀ n : Fin 27, MSub s'.poss[n] s.poss[n]
  unsolved : ∀ b : Fin 3, ∀ c < 27, (s'.unsolved[b].getLsbD c = true ↔
    s.unsolved[b].getLsbD c = true ∧ ¬ (b.val = i.val % 3 ∧ LoneIn q c))
  unsolved_mono : ∀ b : Fin 3, MSub s'.unsolved[b] s.unsolved[b]

theorem andAt_get {n : Nat} (a : Vector Mask n) (i j : Fin n) (m : Mask) :
    (andAt a i m)[j] = if j = i then a[j] &&& m else a[j] := by
  simp only [andAt, Fin.getElem_fin, Vector.getElem_set]
  by_cases h : j = i
  · subst h; simp
  · have : ¬ i.val = j.val := fun e => h (Fin.ext e.symm)
    simp [h, this]

theorem set_get {α : Type} {n : Nat} (a : Vector α n) (i j : Fin n) (x : α) :
    (a.set i x)[j] = if j = i then x else a[j] := by
  simp only [Fin.getElem_fin, Vector.getElem_set]
  by_cases h : j = i
  · subst h; simp
  · have : ¬ i.val = j.val := fun e => h (Fin.ext e.symm)
    simp [h, this]

theorem andBand_get_aux (b : Fin 3) (m : Mask) (skip : Option (Fin 27)) (ds : List (Fin 9))
    (p : Vector Mask 27) (n : Fin 27) :
    (ds.foldl (fun p d => if some (sb d b) = skip then p else andAt p (sb d b) m) p)[n] =
      if (∃ d ∈ ds, sb d b = n) ∧ some n ≠ skip then p[n] &&& m else p[n] := by
  induction ds generalizing p with
  | nil => simp
  | cons d ds ih =>
    rw [List.foldl_cons, ih]
    by_cases hs : some (sb d b) = skip
    · rw [if_pos hs]
      by_cases hn : sb d b = n
      · subst hn
        rw [if_neg (by simp [hs]), if_neg (by simp [hs])]
      · have : (∃ d' ∈ d :: ds, sb d' b = n) ↔ ∃ d' ∈ ds, sb d' b = n := by simp [hn]
        simp only [this]
    · rw [if_neg hs, andAt_get]
      by_cases hn : sb d b = n
      · subst hn
        simp only [if_true]
        have hc : (∃ d' ∈ d :: ds, sb d' b = sb d b) ∧ some (sb d b) ≠ skip := ⟨⟨d, by simp, rfl⟩, hs⟩
        rw [if_pos hc]
        split
        · rw [BitVec.and_assoc, BitVec.and_self]
        · rfl
      · have : (∃ d' ∈ d :: ds, sb d' b = n) ↔ ∃ d' ∈ ds, sb d' b = n := by simp [hn]
        simp only [this, if_neg (fun e : n = sb d b => hn e.symm)]

theorem sb_surj (n : Fin 27) (b : Fin 3) : (∃ d ∈ List.finRange 9, sb d b = n) ↔ n.val % 3 = b.val := by
  constructor
  · rintro ⟨d, _, rfl⟩
    simp only [sb]; omega
  · intro h
    exact ⟨⟨n.val / 3, by omega⟩, List.mem_finRange _, Fin.ext (by simp only [sb]; omega)⟩

theorem andBand_get (b : Fin 3) (m : Mask) (skip : Option (Fin 27)) (p : Vector Mask 27) (n : Fin 27) :
    (andBand p b m skip)[n] = if n.val % 3 = b.val ∧ some n ≠ skip then p[n] &&& m else p[n] := by
  unfold andBand
  rw [andBand_get_aux]; simp only [sb_surj]

theorem neighborSubbands_spec (i : Nat) (hi : i < 27) :
    ∃ a b : Fin 27, neighborSubbands i = .ok (a, b) ∧
      a.val / 3 = i / 3 ∧ b.val / 3 = i / 3 ∧ a.val ≠ i ∧ b.val ≠ i ∧ a ≠ b := by
  have h := List.all_eq_true.1 neighborSubbands_table i (List.mem_range.2 hi)
  unfold neighborSubbands
  split at h
  · next a b heq =>
    simp only [Bool.and_eq_true, decide_eq_true_eq, beq_iff_eq, bne_iff_ne] at h
    obtain ⟨⟨⟨⟨⟨⟨h1, h2⟩, h3⟩, h4⟩, h5⟩, h6⟩, h7⟩ := h
    rw [heq]
    simp only [h1, h2, and_self, dif_pos]
    exact ⟨⟨a, h1⟩, ⟨b, h2⟩, rfl, h3, h4, h5, h6, fun e => h7 (by simpa using e)⟩
  · cases h

theorem getLsbD_not27 (m : Mask) (c : Nat) (hc : c < 27) : (~~~m).getLsbD c = !m.getLsbD c := by
  rw [BitVec.getLsbD_not]
  simp [show c < 32 by omega]

theorem rowMask_spec {rows : Mask} (h : rows.toNat < 8) :
    ∃ v : Mask, rowMask rows = .ok v ∧ ∀ c < 27, v.getLsbD c = rows.getLsbD (c / 9) := by
  obtain ⟨v, h1, h2⟩ := lookup_spec row_table h
  refine ⟨_, h1, fun c hc => ?_⟩
  have h3 := all3_spec (all3_spec (all3_spec h2 (i := c / 9) (by omega)) (i := c % 9 / 3) (by omega))
    (i := c % 3) (by omega)
  rw [getLsbD_ofNat32 (by omega)]
  rw [show 9 * (c / 9) + 3 * (c % 9 / 3) + c % 3 = c by omega] at h3
  exact beq_iff_eq.1 h3

theorem update_cases (s : Solver) (i : Fin 27) (hlt : ∀ c ≥ 27, s.poss[i].getLsbD c = false) :
    (s.update i = .err ∧ ∀ c0 c1 c2, ¬ Placement s.poss[i] c0 c1 c2) ∨
    ∃ s' q, s.update i = .ok s' ∧ UpdateSpec s s' i q := by
  obtain ⟨a, b, c, ha, hb, hc, hsh, hbits⟩ := shrink_spec hlt
  obtain ⟨v, hv, _⟩ := lookup_spec same_table hsh
  have hv' : sameBandByLocked (a ||| (b <<< 3) ||| (c <<< 6)) = .ok (BitVec.ofNat 32 v) := hv
  have hq := locked_spec hlt hsh hbits hv'
  have hpl := fun c0 c1 c2 (hP : Placement s.poss[i] c0 c1 c2) =>
    placement_survives hbits hq hP.r0 hP.r1 hP.r2 hP.o0 hP.o1 hP.o2 hP.d01 hP.d02 hP.d12
  generalize hqdef : s.poss[i] &&& BitVec.ofNat 32 v = q at *
  by_cases hq0 : q = 0
  · left
    constructor
    · unfold Solver.update
      simp only [ha, hb, hc, Res.ok_bind, hv', hqdef]
      rw [if_pos (show q = NONE from hq0)]
    · intro c0 c1 c2 hP
      have := (hpl c0 c1 c2 hP).1
      rw [hq0] at this; simp at this
  · right
    obtain ⟨hrow, hblk⟩ := full_of_ne_zero hbits hq hq0
    have hq27 : ∀ c ≥ 27, q.getLsbD c = false := by
      intro c hc
      by_contra h
      have := ((hq c).1 (by simpa using h)).1
      rw [hlt c hc] at this; cases this
    generalize hcolsd : (q ||| (q >>> 9) ||| (q >>> 18)) &&& LOW9 = cols at *
    have hcols : cols.toNat < 2 ^ 9 := toNat_lt_of_bits (by
      intro i hi; rw [← hcolsd]; simp [getLsbD_LOW9, Nat.not_lt.2 hi])
    obtain ⟨nv, hnv, hnv'⟩ := lookup_spec neighbor_table hcols
    obtain ⟨lv, hlv, hlv'⟩ := lookup_spec locked_table hsh
    obtain ⟨cv, hcv, hcv'⟩ := lookup_spec colsingle_table hcols
    simp only [Bool.and_eq_true, decide_eq_true_eq] at hlv' hcv'
    have hlc : (BitVec.ofNat 32 lv &&& BitVec.ofNat 32 cv).toNat < 512 := by
      rw [BitVec.toNat_and]
      apply lt_of_le_of_lt Nat.and_le_left
      rw [BitVec.toNat_ofNat]
      exact lt_of_le_of_lt (Nat.mod_le _ _) hlv'.1
    obtain ⟨sr, hsr, hsr8, hsrb⟩ := shrinkMask_spec hlc
    obtain ⟨rm, hrm, hrmb⟩ := rowMask_spec hsr8
    obtain ⟨n1, n2, hn, hn1, hn2, hn3, hn4, hn5⟩ := neighborSubbands_spec i.val i.isLt
    have hsol : ∀ c < 27, (rm &&& q).getLsbD c = true ↔ LoneIn q c := by
      intro c hc
      rw [BitVec.getLsbD_and, Bool.and_eq_true, hrmb c hc]
      constructor
      · rintro ⟨h1, h2⟩
        refine (solvedRow_iff (lk := BitVec.ofNat 32 lv) (cs := BitVec.ofNat 32 cv) hlt hbits hq hsh hq0 hlv (by rw [hcolsd]; exact hcv) h2).1 ?_
        rw [hsrb _ (by omega)] at h1
        simp only [Bool.or_eq_true] at h1
        rcases h1 with (h1 | h1) | h1
        · exact ⟨0, by omega, h1⟩
        · exact ⟨1, by omega, h1⟩
        · exact ⟨2, by omega, h1⟩
      · intro h
        refine ⟨?_, h.1⟩
        obtain ⟨k, hk, h1⟩ := (solvedRow_iff (lk := BitVec.ofNat 32 lv) (cs := BitVec.ofNat 32 cv) hlt hbits hq hsh hq0 hlv (by rw [hcolsd]; exact hcv) h.1).2 h
        rw [hsrb _ (by omega)]
        rcases lt3_cases hk with rfl | rfl | rfl
        · rw [show 3 * (c / 9) = 3 * (c / 9) + 0 by omega, h1]; rfl
        · rw [h1]; simp only [Bool.or_true, Bool.true_or]
        · rw [h1]; simp only [Bool.or_true]
    have hnb : ∀ c < 27, (BitVec.ofNat 32 nv : Mask).getLsbD c = true ↔ ¬ OnlyColIn q (c % 9) := by
      intro c hc
      have h3 := all3_spec (all3_spec (all3_spec hnv' (i := c / 9) (by omega)) (i := c % 9 / 3) (by omega))
        (i := c % 3) (by omega)
      rw [show 9 * (c / 9) + 3 * (c % 9 / 3) + c % 3 = c by omega,
        show 3 * (c % 9 / 3) + c % 3 = c % 9 by omega] at h3
      rw [getLsbD_ofNat32 (by omega), beq_iff_eq.1 h3, ← onlyCol_iff hq27 _ (by omega), hcolsd]
      simp
    let bd : Fin 3 := ⟨i.val % 3, by omega⟩
    refine ⟨{ s with
        poss := andBand (andAt (andAt (s.poss.set i q) n1 (BitVec.ofNat 32 nv)) n2 (BitVec.ofNat 32 nv))
          bd (~~~(rm &&& q)) (some i)
        prev := s.prev.set i q
        unsolved := andAt s.unsolved bd (~~~(rm &&& q)) }, q, ?_, ?_⟩
    · unfold Solver.update
      simp only [ha, hb, hc, Res.ok_bind, hv', hqdef]
      rw [if_neg (show ¬ q = NONE from hq0)]
      have e1 : neighborBandsByLocked cols = .ok (BitVec.ofNat 32 nv) := hnv
      have e2 : lockedMinirows (a ||| (b <<< 3) ||| (c <<< 6)) = .ok (BitVec.ofNat 32 lv) := hlv
      have e3 : columnSingle cols = .ok (BitVec.ofNat 32 cv) := hcv
      simp only [hcolsd, e1, hn, e2, e3, hsr, hrm, Res.ok_bind]
      rfl
    · have hget : ∀ n : Fin 27, n ≠ i →
          (andBand (andAt (andAt (s.poss.set i q) n1 (BitVec.ofNat 32 nv)) n2 (BitVec.ofNat 32 nv))
            bd (~~~(rm &&& q)) (some i))[n] =
          if n.val % 3 = i.val % 3 then s.poss[n] &&& ~~~(rm &&& q)
          else if n.val / 3 = i.val / 3 then s.poss[n] &&& BitVec.ofNat 32 nv
          else s.poss[n] := by
        intro n hni
        rw [andBand_get, andAt_get, andAt_get, set_get, if_neg hni]
        have hne : some n ≠ some i := fun e => hni (Option.some.inj e)
        by_cases hm : n.val % 3 = i.val % 3
        · have x1 : n ≠ n1 := by
            rintro rfl
            exact hn3 (by omega)
          have x2 : n ≠ n2 := by
            rintro rfl
            exact hn4 (by omega)
          simp [bd, hm, hne, x1, x2]
        · by_cases hd : n.val / 3 = i.val / 3
          · have hn12 : n = n1 ∨ n = n2 := by
              have : n.val ≠ i.val := fun e => hni (Fin.ext e)
              have : n1.val ≠ n2.val := fun e => hn5 (Fin.ext e)
              have : n.val = n1.val ∨ n.val = n2.val := by omega
              rcases this with e | e
              · exact Or.inl (Fin.ext e)
              · exact Or.inr (Fin.ext e)
            rcases hn12 with rfl | rfl
            · simp [bd, hm, hd, hn5]
            · simp [bd, hm, hd, Ne.symm hn5]
          · have x1 : n ≠ n1 := by rintro rfl; exact hd hn1
            have x2 : n ≠ n2 := by rintro rfl; exact hd hn2
            simp [bd, hm, hd, x1, x2]
      have hself : (andBand (andAt (andAt (s.poss.set i q) n1 (BitVec.ofNat 32 nv)) n2 (BitVec.ofNat 32 nv))
            bd (~~~(rm &&& q)) (some i))[i] = q := by
        have x1 : i ≠ n1 := by rintro rfl; exact hn3 rfl
        have x2 : i ≠ n2 := by rintro rfl; exact hn4 rfl
        rw [andBand_get, andAt_get, andAt_get, set_get, if_neg x2, if_neg x1, if_pos rfl,
          if_neg (by simp)]
      have hsub : MSub q s.poss[i] := fun c h => ((hq c).1 h).1
      refine
        { ne := hq0
          sub := hsub
          rowFull := hrow
          blockFull := hblk
          placement := fun c0 c1 c2 hP => ?_
          prev := rfl
          weird := rfl
          pairs := rfl
          self := hself
          digit := ?_
          band := ?_
          other := ?_
          mono := ?_
          unsolved := ?_
          unsolved_mono := ?_ }
      · obtain ⟨p0, p1, p2⟩ := hpl c0 c1 c2 hP
        exact ⟨hP.r0, hP.r1, hP.r2, p0, p1, p2, hP.d01, hP.d02, hP.d12⟩
      · intro n hni hd c hc
        have hm : n.val % 3 ≠ i.val % 3 := fun e => hni (Fin.ext (by omega))
        simp only [hget n hni, if_neg hm, if_pos hd]
        rw [BitVec.getLsbD_and, Bool.and_eq_true, hnb c hc]
      · intro n hni hm c hc
        simp only [hget n hni, if_pos hm]
        rw [BitVec.getLsbD_and, Bool.and_eq_true, getLsbD_not27 _ _ hc, Bool.not_eq_true',
          ← Bool.not_eq_true, hsol c hc]
      · intro n hd hm
        have hni : n ≠ i := by rintro rfl; exact hd rfl
        simp only [hget n hni, if_neg hm, if_neg hd]
      · intro n c
        by_cases hni : n = i
        · subst hni
          simp only [hself]
          exact hsub c
        · simp only [hget n hni]
          split
          · rw [BitVec.getLsbD_and, Bool.and_eq_true]; exact And.left
          · split
            · rw [BitVec.getLsbD_and, Bool.and_eq_true]; exact And.left
            · exact id
      · intro b c hc
        simp only [andAt_get]
        by_cases hb : b = bd
        · have hb' : b.val = i.val % 3 := by rw [hb]
          simp only [if_pos hb, hb', true_and]
          rw [BitVec.getLsbD_and, Bool.and_eq_true, getLsbD_not27 _ _ hc, Bool.not_eq_true',
            ← Bool.not_eq_true, hsol c hc]
        · have hb' : ¬ b.val = i.val % 3 := fun e => hb (Fin.ext e)
          simp [if_neg hb, hb']
      · intro b c
        simp only [andAt_get]
        split
        · rw [BitVec.getLsbD_and, Bool.and_eq_true]; exact And.left
        · exact id

end Verif.FastSolver
