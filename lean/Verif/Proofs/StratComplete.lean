import Verif.Proofs.StratQuiet

/-! # The strategy solver: a search that finds nothing has missed nothing -/
namespace Verif.Strat

open Bitset Generator

variable {Sel : Candidate → Prop}

theorem QuietVisit.none {P : Prop} (hp : P) (cont : Prop) :
    QuietVisit Sel (fun s => .ok (s, Option.none)) cont P := by
  intro s r he
  cases he
  exact ⟨List.prefix_rfl, fun _ => ⟨by simp, fun _ => rfl, hp⟩⟩

theorem QuietVisit.back {P cont : Prop} (hp : P) (hc : ¬ cont) :
    QuietVisit Sel (fun s => .ok (s, some false)) cont P := by
  intro s r he
  cases he
  exact ⟨List.prefix_rfl, fun _ => ⟨by simp, fun h => absurd h hc, hp⟩⟩

/-- A visit that stops or goes on after entering conflicts. -/
theorem QuietVisit.enter {P cont : Prop} {f : Solver → Res (Solver × Bool)}
    (hf : ∀ s, ∃ (l : List Candidate) (mk : Nat × Nat → RangeDeduction), f s = .ok (s.enterConflicts l mk) ∧
      ((∀ e ∈ l, ¬ Sel e) → P))
    {g : Solver × Bool → Res (Solver × Option Bool)} (hg : ∀ s, g (s, false) = .ok (s, Option.none))
    (hg' : ∀ s, ∃ b, g (s, true) = .ok (s, b) ∧ (b ≠ some true ∧ (cont → b = Option.none) ∨ ∀ e, Sel e)) :
    QuietVisit Sel (fun s => f s >>= g) cont P := by
  intro s r he
  dsimp only at he
  obtain ⟨l, mk, e, hp⟩ := hf s
  rw [e, Res.ok_bind] at he
  obtain ⟨h1, h2⟩ := enterConflicts_quiet (Sel := Sel) l mk s _ rfl
  generalize s.enterConflicts l mk = x at he h1 h2
  obtain ⟨s1, b⟩ := x
  dsimp only at h1 h2
  cases b with
  | false =>
    rw [hg] at he
    cases he
    exact ⟨h1, fun hl => ⟨by simp, fun _ => rfl, hp (h2 hl).2⟩⟩
  | true =>
    obtain ⟨b, hb, hor⟩ := hg' s1
    rw [hb] at he
    cases he
    refine ⟨h1, fun hl => ?_⟩
    rcases hor with ⟨k1, k2⟩ | hall
    · exact ⟨k1, k2, hp (h2 hl).2⟩
    · exact absurd ((h2 hl).1 hall) (by simp)

theorem Soft.enter {P : Prop} {f : Solver → Res (Solver × Bool)}
    (hf : ∀ s, ∃ (l : List Candidate) (mk : Nat × Nat → RangeDeduction), f s = .ok (s.enterConflicts l mk) ∧
      ((∀ e ∈ l, ¬ Sel e) → P)) : Soft Sel f P := by
  intro s r he
  obtain ⟨l, mk, e, hp⟩ := hf s
  rw [e] at he
  obtain ⟨h1, h2⟩ := enterConflicts_quiet l mk s r he
  exact ⟨h1, fun hl => ⟨(h2 hl).1, hp (h2 hl).2⟩⟩

/-- The conflicts contain a candidate of the kind `Sel`. -/
def Hit (Sel : Candidate → Prop) (l : List Candidate) : Prop := ∃ e ∈ l, Sel e

/-! ## Naked subsets -/

theorem nakedVisit_quiet {cp : Vector DigitSet 81} (hf : ∀ c : Fin 81, Fits 9 cp[c]) (size : UInt8) (stop : Bool)
    (h : Fin 27) (a : PosSet × DigitSet)
    (hstop : stop = false ∨ ∀ e, Sel e) : QuietVisit Sel (nakedVisit cp size stop h a) ((elems a.1).card ≤ size.toNat)
      ((elems a.1).card = size.toNat → (elems a.2).card = size.toNat → ∀ (q : Fin 9) (d : Digit),
        Sel ⟨Pos.houseCellAt h q, d⟩ → ¬ a.1.getLsbD q.val = true → cp[Pos.houseCellAt h q].getLsbD d.val = true → ¬ a.2.getLsbD d.val = true) := by
  unfold nakedVisit
  by_cases h1 : len a.1 > size
  · simp only [if_pos h1]
    rw [gt_iff_lt, UInt8.lt_iff_toNat_lt, len_eq_card (by omega)] at h1
    exact QuietVisit.back (fun h2 => by omega) (by omega)
  · simp only [if_neg h1]
    by_cases h2 : len a.1 = size ∧ len a.2 = len a.1
    · simp only [if_pos h2]
      refine QuietVisit.enter ?_ (fun s => by simp) (fun s => ?_)
      · intro s
        obtain ⟨l, e, hmem⟩ := onNakedSubset_eq hf h s a
        refine ⟨l, _, e, fun hl _ _ q d hsel hq hb hd => ?_⟩
        exact hl _ ((hmem ⟨Pos.houseCellAt h q, d⟩).mpr ⟨q, hq, rfl, hb, hd⟩) hsel
      · cases stop
        · exact ⟨_, rfl, Or.inl ⟨by simp, fun _ => rfl⟩⟩
        · exact ⟨_, rfl, Or.inr (hstop.resolve_left (by simp))⟩
    · simp only [if_neg h2]
      refine QuietVisit.none (fun g1 g2 => absurd ?_ h2) _
      rw [← len_eq_iff] at g1 g2
      exact ⟨g1, by rw [g1, g2]⟩

theorem nakedWalk_quiet {cp : Vector DigitSet 81} (hf : ∀ c : Fin 81, Fits 9 cp[c]) {t : Grid} (ht : CpOK cp t)
    {size : UInt8} (hsize : 0 < size.toNat) (stop : Bool) (h : Fin 27)
    (hstop : stop = false ∨ ∀ e, Sel e) :
    Quiet Sel (walk (nakedVisit cp size stop h) (nakedStep cp h) (mems 9 (ALL 16 9)) (NONE 16, NONE 16))
      (∀ p d l, Pattern.NakedSubset (Cands cp) size.toNat h p d l → ¬ Hit Sel l) := by
  refine (walk_quiet (fun _ => True) _ _ (mems 9 (ALL 16 9)) (fun a _ => nakedVisit_quiet hf size stop h a hstop)
    (fun _ _ _ _ _ _ => trivial) _ trivial ?_).mono ?_
  · show (elems (NONE 16)).card ≤ _
    rw [elems_NONE]; simp
  · rintro hq p d l ⟨hp, hd, hp9, hd9, hcells, -, hl⟩ ⟨e, he, hsel⟩
    have hpos : ∀ x : Fin 9, p.getLsbD x.val = true → cp[Pos.houseCellAt h x] ≠ 0#16 ∧
        ∀ i, cp[Pos.houseCellAt h x].getLsbD i = true → d.getLsbD i = true := by
      intro x hx
      obtain ⟨h1, h2⟩ := hcells _ (hca_inHouse h x).1 (by rw [(hca_inHouse h x).2, has_iff]; exact hx)
      obtain ⟨u, hu⟩ := h1
      refine ⟨ne_zero_iff.mpr ⟨u.val, hu⟩, fun i hi => ?_⟩
      have := h2 ⟨i, hf _ i hi⟩ hi
      rwa [has_iff] at this
    obtain ⟨g, hpath, g1, g2⟩ := path_subset (n := 9) (w := 16) (by omega) (step := nakedStep cp h)
      (cont := fun a => (elems a.1).card ≤ size.toNat)
      (poss := fun x => cp[Pos.houseCellAt h x]) (S := p) (L := ALL 16 9) (T := d) (fun i hi => hp9 i (has_iff.mpr hi))
      (fun x _ => (bit_all (by omega) (by omega) _).mpr x.isLt) (by omega) (fun x hx => (hpos x hx).2) (by
        intro a _ x hx
        unfold nakedStep
        dsimp only
        rw [if_neg]
        rw [isEmpty_iff (by omega)]
        exact (hpos x hx).1) (fun a ha => by omega)
    have hfg : Fits 9 g.2 := by
      intro i hi
      obtain ⟨x, _, hi⟩ := (g2 i).mp hi
      exact hf _ i hi
    have hsub : elems g.2 ⊆ elems d := by
      intro i hi
      rw [mem_elems] at hi ⊢
      obtain ⟨x, hx, hi⟩ := (g2 i).mp hi
      exact (hpos x hx).2 i hi
    have hcard : (elems p).card ≤ (elems g.2).card := by
      rw [← card_fset (fun i hi => hp9 i (has_iff.mpr hi)), ← card_fset hfg]
      refine Finset.card_le_card_of_injOn (fun x => dig t (Pos.houseCellAt h x)) ?_ ((dig_inj ht.solved h).injOn)
      intro x hx
      rw [Finset.mem_coe, mem_fset] at hx ⊢
      rw [g2]
      refine ⟨x, hx, ?_⟩
      rcases ht.poss _ _ (dig_spec ht.solved (Pos.houseCellAt h x)) with h3 | h3
      · exact absurd h3 (hpos x hx).1
      · exact h3
    have heq := Finset.eq_of_subset_of_card_le hsub (by omega)
    have hP := hq g hpath (by rw [g1, hp]) (by rw [heq, hd])
    obtain ⟨⟨h1, h2, h3⟩, h4⟩ := (hl e.cell e.digit).mp he
    obtain ⟨q, hqc, hpos'⟩ := inHouse_hca h1
    refine hP q e.digit (by rw [hqc]; exact hsel) ?_ ?_ ?_
    · rw [g1]
      rw [hpos', has_iff] at h2
      exact h2
    · rw [show cp[Pos.houseCellAt h q] = cp[e.cell] from congrArg (fun c : Fin 81 => cp[c]) hqc]
      exact h4
    · rw [← mem_elems, heq, ← Pattern.Has]
      exact h3

theorem nakedSubsets_quiet {cp : Vector DigitSet 81} {hs : Vector DigitSet 27} (hf : ∀ c : Fin 81, Fits 9 cp[c])
    (hfull : ∀ h : Fin 27, isFull 9 hs[h] = true → ∀ p : Fin 9, cp[Pos.houseCellAt h p] = 0#16)
    {t : Grid} (ht : CpOK cp t) {size : UInt8} (hsize : 0 < size.toNat) (stop : Bool)
    (hstop : stop = false ∨ ∀ e, Sel e) :
    Quiet Sel (forUntil (fun s' house =>
      if isFull 9 hs[house] then .ok (s', false)
      else do
        let positions ← items 9 (ALL 16 9)
        walk (nakedVisit cp size stop house) (nakedStep cp house) positions (NONE 16, NONE 16) s')
      (List.finRange 27)) (∀ (h : Fin 27) p d l, Pattern.NakedSubset (Cands cp) size.toNat h p d l → ¬ Hit Sel l) := by
  refine (forUntil_quiet (P := fun h : Fin 27 => ∀ p d l, Pattern.NakedSubset (Cands cp) size.toNat h p d l → ¬ Hit Sel l) _ ?_).mono
    (fun h x => h x (List.mem_finRange x))
  intro h _
  by_cases hfu : isFull 9 hs[h] = true
  · simp only [hfu, if_true]
    refine Quiet.skip ?_
    rintro p d l ⟨hp, _, hp9, _, hcells, _⟩ -
    obtain ⟨i, hi⟩ := Finset.card_pos.mp (show 0 < (elems p).card by omega)
    have hi9 := hp9 i hi
    obtain ⟨⟨u, hu⟩, _⟩ := hcells _ (hca_inHouse h ⟨i, hi9⟩).1 (by rw [(hca_inHouse h ⟨i, hi9⟩).2]; exact hi)
    have h0 := hfull h hfu ⟨i, hi9⟩
    unfold Cands at hu
    rw [h0] at hu
    simp at hu
  · simp only [if_neg hfu]
    refine (nakedWalk_quiet hf ht hsize stop h hstop).congr fun s => ?_
    rw [items_eq (by omega) (by omega) (fits_all (by omega) (by omega)), Res.ok_bind]

/-! ## Hidden subsets -/

theorem hiddenVisit_quiet {poss : Vector PosSet 9} (hf : ∀ d : Digit, Fits 9 poss[d]) (size : UInt8) (stop : Bool)
    (h : Fin 27) (a : DigitSet × PosSet)
    (hstop : stop = false ∨ ∀ e, Sel e) : QuietVisit Sel (hiddenVisit poss size stop h a) ((elems a.1).card ≤ size.toNat)
      ((elems a.1).card = size.toNat → (elems a.2).card = size.toNat → ∀ (q : Fin 9) (d : Digit),
        Sel ⟨Pos.houseCellAt h q, d⟩ → ¬ a.1.getLsbD d.val = true → poss[d].getLsbD q.val = true → ¬ a.2.getLsbD q.val = true) := by
  unfold hiddenVisit
  by_cases h1 : len a.1 > size
  · simp only [if_pos h1]
    rw [gt_iff_lt, UInt8.lt_iff_toNat_lt, len_eq_card (by omega)] at h1
    exact QuietVisit.back (fun h2 => by omega) (by omega)
  · simp only [if_neg h1]
    by_cases h2 : len a.1 = size ∧ len a.2 = size
    · simp only [if_pos h2]
      refine QuietVisit.enter ?_ (fun s => by simp) (fun s => ?_)
      · intro s
        obtain ⟨l, e, hmem⟩ := onHiddenSubset_eq hf h s a
        refine ⟨l, _, e, fun hl _ _ q d hsel hq hb hd => ?_⟩
        exact hl _ ((hmem ⟨Pos.houseCellAt h q, d⟩).mpr ⟨q, hd, rfl, hb, hq⟩) hsel
      · cases stop
        · exact ⟨_, rfl, Or.inl ⟨by simp, fun _ => rfl⟩⟩
        · exact ⟨_, rfl, Or.inr (hstop.resolve_left (by simp))⟩
    · simp only [if_neg h2]
      refine QuietVisit.none (fun g1 g2 => absurd ?_ h2) _
      rw [← len_eq_iff] at g1 g2
      exact ⟨g1, g2⟩

theorem hiddenWalk_quiet {cp : Vector DigitSet 81} {hp : HousePoss} (hf : ∀ (h : Fin 27) (d : Digit), Fits 9 hp[h][d])
    (hag : HpCp cp hp) {t : Grid} (ht : Solved t) (hpt : HpOK hp t)
    {size : UInt8} (hsize : 0 < size.toNat) (stop : Bool) (h : Fin 27)
    (hstop : stop = false ∨ ∀ e, Sel e) :
    Quiet Sel (walk (hiddenVisit hp[h] size stop h) (hiddenStep hp[h]) (mems 9 (ALL 16 9)) (NONE 16, NONE 16))
      (∀ p d l, Pattern.HiddenSubset (Cands cp) size.toNat h p d l → ¬ Hit Sel l) := by
  refine (walk_quiet (fun _ => True) _ _ (mems 9 (ALL 16 9)) (fun a _ => hiddenVisit_quiet (hf h) size stop h a hstop)
    (fun _ _ _ _ _ _ => trivial) _ trivial ?_).mono ?_
  · show (elems (NONE 16)).card ≤ _
    rw [elems_NONE]; simp
  · rintro hq p d l ⟨hp', hd, hp9, hd9, hcells, -, hl⟩ ⟨e, he, hsel⟩
    have hpos : ∀ x : Digit, d.getLsbD x.val = true → hp[h][x] ≠ 0#16 ∧
        ∀ i, hp[h][x].getLsbD i = true → p.getLsbD i = true := by
      intro x hx
      obtain ⟨h1, h2⟩ := hcells x (has_iff.mpr hx)
      obtain ⟨c, hc, hb⟩ := h1
      obtain ⟨q, rfl, _⟩ := inHouse_hca hc
      refine ⟨ne_zero_iff.mpr ⟨q.val, (hag h x q).mpr hb⟩, fun i hi => ?_⟩
      have hi9 := hf h x i hi
      have := h2 _ (hca_inHouse h ⟨i, hi9⟩).1 ((hag h x ⟨i, hi9⟩).mp hi)
      rwa [(hca_inHouse h ⟨i, hi9⟩).2, has_iff] at this
    obtain ⟨g, hpath, g1, g2⟩ := path_subset (n := 9) (w := 16) (by omega) (step := hiddenStep hp[h])
      (cont := fun a => (elems a.1).card ≤ size.toNat)
      (poss := fun x => hp[h][x]) (S := d) (L := ALL 16 9) (T := p) (fun i hi => hd9 i (has_iff.mpr hi))
      (fun x _ => (bit_all (by omega) (by omega) _).mpr x.isLt) (by omega) (fun x hx => (hpos x hx).2) (by
        intro a _ x hx
        unfold hiddenStep
        rw [if_neg]
        rw [isEmpty_iff (by omega)]
        exact (hpos x hx).1) (fun a ha => by omega)
    have hfg : Fits 9 g.2 := by
      intro i hi
      obtain ⟨x, _, hi⟩ := (g2 i).mp hi
      exact hf _ _ i hi
    have hsub : elems g.2 ⊆ elems p := by
      intro i hi
      rw [mem_elems] at hi ⊢
      obtain ⟨x, hx, hi⟩ := (g2 i).mp hi
      exact (hpos x hx).2 i hi
    have hcard : (elems d).card ≤ (elems g.2).card := by
      rw [← card_fset (fun i hi => hd9 i (has_iff.mpr hi)), ← card_fset hfg]
      choose w hw using exists_pos ht h
      have hinj : Function.Injective w := by
        intro x y e
        have := hw x
        rw [e, hw y] at this
        exact (Digit.get_inj this).symm
      refine Finset.card_le_card_of_injOn w ?_ hinj.injOn
      intro x hx
      rw [Finset.mem_coe, mem_fset] at hx ⊢
      rw [g2]
      refine ⟨x, hx, ?_⟩
      rcases hpt h x (w x) (hw x) with h3 | h3
      · exact absurd h3 (hpos x hx).1
      · exact h3
    have heq := Finset.eq_of_subset_of_card_le hsub (by omega)
    have hP := hq g hpath (by rw [g1, hd]) (by rw [heq, hp'])
    obtain ⟨⟨h1, h2, h3⟩, h4⟩ := (hl e.cell e.digit).mp he
    obtain ⟨q, hqc, hpos'⟩ := inHouse_hca h1
    refine hP q e.digit (by rw [hqc]; exact hsel) ?_ ?_ ?_
    · rw [g1]
      rw [has_iff] at h3
      exact h3
    · rw [hag h, show cp[Pos.houseCellAt h q] = cp[e.cell] from congrArg (fun c : Fin 81 => cp[c]) hqc]
      exact h4
    · rw [hpos'] at h2
      rw [← mem_elems, heq, ← Pattern.Has]
      exact h2

theorem hiddenSubsets_quiet {cp : Vector DigitSet 81} {hs : Vector DigitSet 27} {hp : HousePoss}
    (hf : ∀ (h : Fin 27) (d : Digit), Fits 9 hp[h][d]) (hag : HpCp cp hp)
    (hfull : ∀ h : Fin 27, isFull 9 hs[h] = true → ∀ p : Fin 9, cp[Pos.houseCellAt h p] = 0#16)
    {t : Grid} (ht : Solved t) (hpt : HpOK hp t) {size : UInt8} (hsize : 0 < size.toNat) (stop : Bool)
    (hstop : stop = false ∨ ∀ e, Sel e) :
    Quiet Sel (forUntil (fun s' house =>
      if isFull 9 hs[house] then .ok (s', false)
      else do
        let digits ← items 9 (ALL 16 9)
        walk (hiddenVisit hp[house] size stop house) (hiddenStep hp[house]) digits (NONE 16, NONE 16) s')
      (List.finRange 27)) (∀ (h : Fin 27) p d l, Pattern.HiddenSubset (Cands cp) size.toNat h p d l → ¬ Hit Sel l) := by
  refine (forUntil_quiet (P := fun h : Fin 27 => ∀ p d l, Pattern.HiddenSubset (Cands cp) size.toNat h p d l → ¬ Hit Sel l) _ ?_).mono
    (fun h x => h x (List.mem_finRange x))
  intro h _
  by_cases hfu : isFull 9 hs[h] = true
  · simp only [hfu, if_true]
    refine Quiet.skip ?_
    rintro p d l ⟨_, hd, _, hd9, hcells, _⟩ -
    obtain ⟨i, hi⟩ := Finset.card_pos.mp (show 0 < (elems d).card by omega)
    obtain ⟨⟨c, hc, hb⟩, _⟩ := hcells ⟨i, hd9 i hi⟩ hi
    obtain ⟨q, rfl, _⟩ := inHouse_hca hc
    have h0 := hfull h hfu q
    unfold Cands at hb
    rw [h0] at hb
    simp at hb
  · simp only [if_neg hfu]
    refine (hiddenWalk_quiet hf hag ht hpt hsize stop h hstop).congr fun s => ?_
    rw [items_eq (by omega) (by omega) (fits_all (by omega) (by omega)), Res.ok_bind]

/-! ## Fish -/

theorem fishVisit_quiet {cp : Vector DigitSet 81} (dir : Fin 2) (digit : Digit) (size : UInt8) (stop : Bool)
    (a : LineSet × PosSet) (hf2 : Fits 9 a.2) (hstop : stop = false ∨ ∀ e, Sel e) :
    QuietVisit Sel (fishVisit cp (dirLines dir) digit size stop a) ((elems a.1).card < size.toNat)
      ((elems a.1).card = size.toNat → (elems a.2).card = size.toNat → ∀ j q : Fin 9,
        Sel ⟨Pos.lineCellAt (dirLine dir j) q, digit⟩ → ¬ a.1.getLsbD (dirLine dir j).val = true → a.2.getLsbD q.val = true →
        ¬ cp[Pos.lineCellAt (dirLine dir j) q].getLsbD digit.val = true) := by
  unfold fishVisit
  by_cases h1 : len a.1 = size
  · simp only [if_pos h1]
    have h1' := h1
    rw [len_eq_iff' (by omega)] at h1'
    by_cases h2 : len a.2 ≠ size
    · simp only [if_pos h2]
      refine QuietVisit.back (fun _ g2 => absurd ?_ h2) (by omega)
      rw [len_eq_iff]
      exact g2
    · simp only [if_neg h2]
      refine QuietVisit.enter ?_ (fun s => by simp) (fun s => ⟨_, rfl, hstop.imp_left (by rintro rfl; exact ⟨by simp, fun hc => absurd hc (by omega)⟩)⟩)
      intro s
      obtain ⟨l, e, hmem⟩ := onFish_eq (cp := cp) digit dir s hf2
      refine ⟨l, _, e, fun hl _ _ j q hsel hj hq hb => ?_⟩
      exact hl _ ((hmem ⟨Pos.lineCellAt (dirLine dir j) q, digit⟩).mpr ⟨j, q, hj, hq, rfl, rfl, hb⟩) hsel
  · simp only [if_neg h1]
    refine QuietVisit.none (fun g1 _ => absurd ?_ h1) _
    rw [len_eq_iff' (by omega)]
    exact g1

/-- There is no fish in a direction. -/
def NoFish (Sel : Candidate → Prop) (cp : Vector DigitSet 81) (n : Nat) (digit : Digit) (dir : Fin 2) : Prop :=
  ∀ lines p l, Pattern.BasicFish (Cands cp) n digit lines p l →
    (∀ x, Pattern.Has lines x → 9 * dir.val ≤ x ∧ x < 9 * dir.val + 9) →
    (∀ x, Pattern.Has lines x → ∃ c c', c ≠ c' ∧ Pattern.InHouse x c ∧ Pattern.InHouse x c' ∧ Cands cp c digit ∧
      Cands cp c' digit) → ¬ Hit Sel l

theorem fishWalk_quiet {cp : Vector DigitSet 81} {hp : HousePoss} (hf : ∀ (h : Fin 27) (d : Digit), Fits 9 hp[h][d])
    (hag : HpCp cp hp) {t : Grid} (ht : Solved t) (hpt : HpOK hp t)
    {size : UInt8} (hsize : 0 < size.toNat) (stop : Bool) (digit : Digit) (dir : Fin 2)
    (hstop : stop = false ∨ ∀ e, Sel e) :
    Quiet Sel (walk (fishVisit cp (dirLines dir) digit size stop) (fishStep hp digit size) (mems 18 (dirLines dir))
      (NONE 32, NONE 16)) (NoFish Sel cp size.toNat digit dir) := by
  refine (walk_quiet (fun a => Fits 9 a.2) _ _ (mems 18 (dirLines dir))
    (fun a ha => fishVisit_quiet dir digit size stop a ha hstop) ?_ _ fits_none ?_).mono ?_
  · intro a x _ ha a' he
    unfold fishStep at he
    dsimp only at he
    rw [asLineSet_ok (hf _ _), Res.ok_bind] at he
    split at he
    · cases he
    · cases he
      exact ha.union (hf _ _)
  · show (elems (NONE 32)).card < _
    rw [elems_NONE]; simpa using hsize
  · rintro hq lines p l ⟨hln, hpn, hp9, dir', hdir', hrange', hlines, -, hl⟩ hrange htwo ⟨e, he, hsel⟩
    have hdd : dir' = 9 * dir.val := by
      obtain ⟨x, hx⟩ := Finset.card_pos.mp (show 0 < (elems lines).card by omega)
      have := hrange x hx
      have := hrange' x hx
      omega
    subst hdd
    have hfl : Fits 18 lines := fun i hi => by have := hrange i (has_iff.mpr hi); omega
    have hpos : ∀ x : Fin 18, lines.getLsbD x.val = true → (∃ i, x = dirLine dir i) ∧ 2 ≤ (elems hp[Pos.lineHouse x][digit]).card ∧
        ∀ i, hp[Pos.lineHouse x][digit].getLsbD i = true → p.getLsbD i = true := by
      intro x hx
      obtain ⟨r1, r2⟩ := hrange x (has_iff.mpr hx)
      obtain ⟨i, hi⟩ := dir_exists r1 r2
      have hi := Fin.ext hi
      subst hi
      refine ⟨⟨i, rfl⟩, ?_, ?_⟩
      · obtain ⟨c, c', hcc, h1, h2, h3, h4⟩ := htwo _ (has_iff.mpr hx)
        rw [← dirLine_house] at h1 h2
        obtain ⟨q, rfl, _⟩ := inHouse_hca h1
        obtain ⟨q', rfl, _⟩ := inHouse_hca h2
        refine Finset.one_lt_card.mpr ⟨q.val, mem_elems.mpr ((hag _ _ q).mpr h3), q'.val,
          mem_elems.mpr ((hag _ _ q').mpr h4), fun e => hcc ?_⟩
        rw [Fin.ext e]
      · intro j hj
        have hj9 := hf _ _ j hj
        have := (hlines _ (has_iff.mpr hx)).2 (Pos.houseCellAt (Pos.lineHouse (dirLine dir i)) ⟨j, hj9⟩)
        rw [← dirLine_house] at this
        have := this (hca_inHouse _ _).1 ((hag _ _ ⟨j, hj9⟩).mp hj)
        rwa [(hca_inHouse _ _).2, has_iff] at this
    obtain ⟨g, hpath, g1, g2⟩ := path_subset (n := 18) (w := 32) (by omega) (step := fishStep hp digit size)
      (cont := fun a => (elems a.1).card < size.toNat)
      (poss := fun x => hp[Pos.lineHouse x][digit]) (S := lines) (L := dirLines dir) (T := p) hfl
      (fun x hx => (dirLines_bit dir x).mpr (hpos x hx).1) (by omega) (fun x hx => (hpos x hx).2.2) (by
        intro a ha x hx
        unfold fishStep
        dsimp only
        rw [asLineSet_ok (hf _ _), Res.ok_bind, if_neg]
        obtain ⟨_, h2, h3⟩ := hpos x hx
        rw [not_or]
        constructor
        · rw [UInt8.lt_iff_toNat_lt, len_eq_card (by omega)]
          show ¬ _ < 2
          omega
        · rw [gt_iff_lt, UInt8.lt_iff_toNat_lt, len_eq_card (by omega), ← hpn, Nat.not_lt]
          refine Finset.card_le_card fun i hi => ?_
          rw [mem_elems] at hi ⊢
          rw [bit_union, Bool.or_eq_true] at hi
          exact hi.elim (ha i) (h3 i)) (fun a ha => by omega)
    have hfg : Fits 9 g.2 := by
      intro i hi
      obtain ⟨x, _, hi⟩ := (g2 i).mp hi
      exact hf _ _ i hi
    have hsub : elems g.2 ⊆ elems p := by
      intro i hi
      rw [mem_elems] at hi ⊢
      obtain ⟨x, hx, hi⟩ := (g2 i).mp hi
      exact (hpos x hx).2.2 i hi
    have hacc : FishAcc hp digit dir g := by
      refine ⟨by rw [g1]; exact hfl, hfg, fun x hx => (hpos x (by rwa [g1] at hx)).1, fun x hx => ?_⟩
      rw [g1] at hx
      refine ⟨fun h0 => ?_, fun i hi => (g2 i).mpr ⟨x, hx, hi⟩⟩
      have := (hpos x hx).2.1
      rw [h0] at this
      revert this
      decide +kernel
    have hcard : (elems lines).card ≤ (elems g.2).card := by
      rw [← g1, card_lines hacc, ← card_fset hfg]
      choose w hw using fun i : Fin 9 => exists_pos ht (Pos.lineHouse (dirLine dir i)) digit
      have hinj : Function.Injective w := by
        intro x y e
        by_contra hne
        obtain ⟨h1, h2⟩ := cross dir (w x) x y hne
        refine ht.2 _ _ h1 h2 ?_
        have l1 := congrArg (fun c : Fin 81 => t[c]) (lca_eq (dirLine dir x) (w x))
        have l2 := congrArg (fun c : Fin 81 => t[c]) (lca_eq (dirLine dir y) (w x))
        have e2 := hw y
        rw [← e] at e2
        exact (l1.trans (hw x)).trans (l2.trans e2).symm
      refine Finset.card_le_card_of_injOn w ?_ hinj.injOn
      intro x hx
      have hx : g.1.getLsbD (dirLine dir x).val = true := by simpa using hx
      rw [Finset.mem_coe, mem_fset]
      obtain ⟨h1, h2⟩ := hacc.poss _ hx
      rcases hpt (Pos.lineHouse (dirLine dir x)) digit (w x) (hw x) with h3 | h3
      · exact absurd h3 h1
      · exact h2 _ h3
    have heq := Finset.eq_of_subset_of_card_le hsub (by omega)
    have hP := hq g hpath (by rw [g1, hln]) (by rw [heq, hpn])
    obtain ⟨⟨h0, x, hx1, hx2, hx3, h1, h2⟩, h4⟩ := (hl e.cell e.digit).mp he
    obtain ⟨j, rfl⟩ := dir_exists hx1 hx2
    rw [← dirLine_house] at h1 h2
    obtain ⟨q, hqc, hpos'⟩ := inHouse_hca h1
    refine hP j q (by rw [show Pos.lineCellAt (dirLine dir j) q = e.cell from (lca_eq _ _).trans hqc, ← h0]; exact hsel) ?_ ?_ ?_
    · rw [g1]
      exact fun h => hx3 (has_iff.mpr h)
    · rw [hpos'] at h2
      rw [← mem_elems, heq, ← Pattern.Has]
      exact h2
    · rw [show cp[Pos.lineCellAt (dirLine dir j) q] = cp[e.cell] from
        congrArg (fun c : Fin 81 => cp[c]) ((lca_eq _ _).trans hqc), ← h0]
      exact h4

theorem fish_quiet {cp : Vector DigitSet 81} {hp : HousePoss} (hf : ∀ (h : Fin 27) (d : Digit), Fits 9 hp[h][d])
    (hag : HpCp cp hp) {t : Grid} (ht : Solved t) (hpt : HpOK hp t)
    {size : UInt8} (hsize : 0 < size.toNat) (stop : Bool)
    (hstop : stop = false ∨ ∀ e, Sel e) :
    Quiet Sel (forUntil (fun s' (digit : Digit) =>
      forUntil (fun s' (lines : LineSet) => do
        let l ← items 18 lines
        walk (fishVisit cp lines digit size stop) (fishStep hp digit size) l (NONE 32, NONE 16) s')
      [allRows, allCols] s') (List.finRange 9))
      (∀ digit lines p l, Pattern.BasicFish (Cands cp) size.toNat digit lines p l →
        (∀ x, Pattern.Has lines x → ∃ c c', c ≠ c' ∧ Pattern.InHouse x c ∧ Pattern.InHouse x c' ∧ Cands cp c digit ∧
          Cands cp c' digit) → ¬ Hit Sel l) := by
  refine (forUntil_quiet _ (fun digit _ => forUntil_quiet
    (P := fun L => ∀ dir, L = dirLines dir → NoFish Sel cp size.toNat digit dir) [allRows, allCols] (fun L hL => ?_))).mono ?_
  · have hdir : ∃ dir, L = dirLines dir := by
      rcases List.mem_cons.mp hL with rfl | hL
      · exact ⟨0, rfl⟩
      · rw [List.mem_singleton] at hL
        exact ⟨1, hL⟩
    obtain ⟨dir, rfl⟩ := hdir
    refine ((fishWalk_quiet hf hag ht hpt hsize stop digit dir hstop).congr fun s => ?_).mono ?_
    · rw [items_eq (by omega) (by omega) (dirLines_fits dir), Res.ok_bind]
    · intro h dir' hd
      have : dir = dir' := (show ∀ x y : Fin 2, dirLines x = dirLines y → x = y by decide +kernel) _ _ hd
      rw [← this]
      exact h
  · intro h digit lines p l hb htwo
    obtain ⟨_, _, _, dir, hdir, hrange, _⟩ := id hb
    rcases hdir with rfl | rfl
    · exact h digit (List.mem_finRange _) (dirLines 0) (by simp [dirLines]) 0 rfl lines p l hb (by simpa using hrange) htwo
    · exact h digit (List.mem_finRange _) (dirLines 1) (by simp [dirLines]) 1 rfl lines p l hb (by simpa using hrange) htwo

/-! ## Locked candidates -/

theorem unique_iff {poss : Vector DigitSet 9} {x y z : Fin 9} {d : Nat} {i : Fin 9} (hi : i = x ∨ i = y ∨ i = z)
    (h : poss[i].getLsbD d = true)
    (hx : x ≠ i → ¬ poss[x].getLsbD d = true) (hy : y ≠ i → ¬ poss[y].getLsbD d = true)
    (hz : z ≠ i → ¬ poss[z].getLsbD d = true) (hxy : x ≠ y) (hxz : x ≠ z) (hyz : y ≠ z) :
    (uniqueOf poss x y z).getLsbD d = true := by
  unfold uniqueOf scanDigits
  simp only [List.foldl_cons, List.foldl_nil, bit_without, bit_union, bit_inter, bit_none]
  rcases hi with rfl | rfl | rfl
  · have hy := hy (Ne.symm hxy)
    have hz := hz (Ne.symm hxz)
    rw [Bool.not_eq_true] at hy hz
    rw [h, hy, hz]; rfl
  · have hx := hx hxy
    have hz := hz (Ne.symm hyz)
    rw [Bool.not_eq_true] at hx hz
    rw [h, hx, hz]; rfl
  · have hx := hx hxz
    have hy := hy hyz
    rw [Bool.not_eq_true] at hx hy
    rw [h, hx, hy]; rfl

/-- The deduction of a miniline. -/
def LockedAt (cp : Vector DigitSet 81) (digit : Digit) (m : Fin 54) (isP : Bool) (l : List Candidate) : Prop :=
  if isP then Pattern.Locked (Cands cp) digit (Pattern.miniBlock m) (Pattern.miniLine m) l
  else Pattern.Locked (Cands cp) digit (Pattern.miniLine m) (Pattern.miniBlock m) l

theorem onLocked_quiet {cp : Vector DigitSet 81} (hf : ∀ c : Fin 81, Fits 9 cp[c]) {m : Fin 54} {d : Digit}
    {n : Nat × Nat} {h1 h2 : Nat} (hn : NeighborsOK m n h1 h2) (isP : Bool) :
    Soft Sel (fun s => onLocked cp s m d n isP) (∀ l, Pattern.Locked (Cands cp) d h1 h2 l → ¬ Hit Sel l) := by
  refine Soft.enter fun s => ?_
  obtain ⟨l, e, hmem⟩ := onLocked_eq hf s (d := d) hn isP
  refine ⟨l, _, e, ?_⟩
  rintro hl l' ⟨_, _, _, hl'⟩ ⟨c, hc, hsel⟩
  exact hl c ((hmem c).mpr ((hl' c.cell c.digit).mp hc)) hsel

/-- The digit is possible in the miniline only, among those of the line or block. -/
theorem locked_other {cp : Vector DigitSet 81} {h1 h2 : Nat} {m : Fin 54} {d : Digit}
    (hmini : ∀ c : Fin 81, (Pos.miniLineCells m).getLsbD c.val = true ↔ Pattern.InHouse h1 c ∧ Pattern.InHouse h2 c)
    (hex : ∃ c, Pattern.InHouse h1 c ∧ Cands cp c d) (hall : ∀ c, Pattern.InHouse h1 c → Cands cp c d → Pattern.InHouse h2 c) :
    (miniPoss cp m).getLsbD d.val = true ∧ ∀ m' : Fin 54, (∀ c : Fin 81, (Pos.miniLineCells m').getLsbD c.val = true →
      Pattern.InHouse h1 c ∧ ¬ (Pos.miniLineCells m).getLsbD c.val = true) → ¬ (miniPoss cp m').getLsbD d.val = true := by
  constructor
  · obtain ⟨c, hc, hb⟩ := hex
    exact bit_miniPoss.mpr ⟨c, (hmini c).mpr ⟨hc, hall c hc hb⟩, hb⟩
  · intro m' hm' h
    obtain ⟨c, hc, hb⟩ := bit_miniPoss.mp h
    obtain ⟨h3, h4⟩ := hm' c hc
    exact h4 ((hmini c).mpr ⟨h3, hall c h3 hb⟩)

theorem mini_line' : ∀ (chute : Fin 6) (i j : Fin 9), j.val / 3 = i.val / 3 → j ≠ i → ∀ c : Fin 81,
    (Pos.miniLineCells (ml chute j)).getLsbD c.val = true → Pattern.InHouse (Pattern.miniLine (ml chute i)) c ∧
      ¬ (Pos.miniLineCells (ml chute i)).getLsbD c.val = true := by decide +kernel

theorem mini_block' : ∀ (chute : Fin 6) (i j : Fin 9), j.val % 3 = i.val % 3 → j ≠ i → ∀ c : Fin 81,
    (Pos.miniLineCells (ml chute j)).getLsbD c.val = true → Pattern.InHouse (Pattern.miniBlock (ml chute i)) c ∧
      ¬ (Pos.miniLineCells (ml chute i)).getLsbD c.val = true := by decide +kernel

theorem mem_filter_ne {α : Type} {p : α → Bool} {a x y : α} (h : a = x ∨ a = y) (hp : p a = true) :
    a ∈ [x, y].filter p := by
  rw [List.mem_filter]
  refine ⟨?_, hp⟩
  rcases h with rfl | rfl <;> simp

theorem lockedMiniline_quiet {cp : Vector DigitSet 81} (hf : ∀ c : Fin 81, Fits 9 cp[c]) (stop : Bool)
    (hstop : stop = false ∨ ∀ e, Sel e)
    {poss : Vector DigitSet 9} {chute : Fin 6} (hposs : ∀ i : Fin 9, poss[i] = miniPoss cp (ml chute i)) (i : Fin 9) :
    Quiet Sel (fun s => lockedMiniline cp stop poss chute s i)
      (∀ d isP l, LockedAt cp d (ml chute i) isP l → ¬ Hit Sel l) := by
  unfold lockedMiniline
  dsimp only
  change Quiet Sel (fun s => match Pos.minilineNeighbors (ml chute i) with
    | none => _
    | some (_, _) => _) _
  obtain ⟨ln, fn, he, h1, h2⟩ := minilineNeighbors_spec (ml chute i)
  rw [he]
  dsimp only
  refine (forUntil_quiet (P := fun x : DigitSet × (Nat × Nat) × Bool => ∀ d : Digit, x.1.getLsbD d.val = true →
    ∀ l, LockedAt cp d (ml chute i) x.2.2 l → ¬ Hit Sel l) _ ?_).mono ?_
  · rintro ⟨digits, n, isP⟩ hx
    have hx := List.mem_of_mem_filter hx
    have hfit : Fits 9 digits := by
      simp only [List.mem_cons, Prod.mk.injEq, List.not_mem_nil, or_false] at hx
      rcases hx with ⟨rfl, _⟩ | ⟨rfl, _⟩ <;> rw [hposs] <;> exact (fits_miniPoss hf _).inter_left
    dsimp only
    rw [items_eq (by omega) (by omega) hfit]
    simp only [Res.ok_bind]
    refine (forUntil_quiet (P := fun d => ∀ l, LockedAt cp d (ml chute i) isP l → ¬ Hit Sel l) (mems 9 digits) fun d _ => ?_).mono
      (fun h d hd => h d (mem_mems.mpr hd))
    refine Soft.stopped ?_ (fun b => stop && b) (by simp) (hstop.imp_left (by rintro rfl; simp))
    simp only [List.mem_cons, Prod.mk.injEq, List.not_mem_nil, or_false] at hx
    rcases hx with ⟨rfl, rfl, rfl⟩ | ⟨rfl, rfl, rfl⟩
    · exact onLocked_quiet hf h2 false
    · exact onLocked_quiet hf h1 true
  · intro hq d isP l hl
    cases isP with
    | false =>
      have hl' : Pattern.Locked (Cands cp) d (Pattern.miniLine (ml chute i)) (Pattern.miniBlock (ml chute i)) l := hl
      obtain ⟨g1, g2⟩ := locked_other (inMini (ml chute i)) hl'.1 hl'.2.1
      have hbit : (inter poss[i] (uniqueOf poss ⟨i.val / 3 * 3, by omega⟩ ⟨i.val / 3 * 3 + 1, by omega⟩
          ⟨i.val / 3 * 3 + 2, by omega⟩)).getLsbD d.val = true := by
        rw [bit_inter, Bool.and_eq_true]
        refine ⟨by rw [hposs]; exact g1, ?_⟩
        have ot : ∀ x : Fin 9, x.val / 3 = i.val / 3 → x ≠ i → ¬ poss[x].getLsbD d.val = true := by
          intro x hx hne
          rw [hposs]
          exact g2 _ (mini_line' chute i x hx hne)
        refine unique_iff (i := i) ?_ (by rw [hposs]; exact g1) (ot _ ?_) (ot _ ?_) (ot _ ?_) ?_ ?_ ?_
        · simp only [Fin.ext_iff]; omega
        · dsimp only; omega
        · dsimp only; omega
        · dsimp only; omega
        · simp only [ne_eq, Fin.ext_iff]; omega
        · simp only [ne_eq, Fin.ext_iff]; omega
        · simp only [ne_eq, Fin.ext_iff]; omega
      refine hq (_, fn, false) (mem_filter_ne (Or.inl rfl) ?_) d hbit l hl
      dsimp only
      rw [Bool.not_eq_true', Bool.eq_false_iff, ne_eq, isEmpty_iff (by omega)]
      exact ne_zero_iff.mpr ⟨_, hbit⟩
    | true =>
      have hl' : Pattern.Locked (Cands cp) d (Pattern.miniBlock (ml chute i)) (Pattern.miniLine (ml chute i)) l := hl
      obtain ⟨g1, g2⟩ := locked_other (fun c => (inMini (ml chute i) c).trans and_comm) hl'.1 hl'.2.1
      have hbit : (inter poss[i] (uniqueOf poss ⟨i.val % 3, by omega⟩ ⟨3 + i.val % 3, by omega⟩
          ⟨6 + i.val % 3, by omega⟩)).getLsbD d.val = true := by
        rw [bit_inter, Bool.and_eq_true]
        refine ⟨by rw [hposs]; exact g1, ?_⟩
        have ot : ∀ x : Fin 9, x.val % 3 = i.val % 3 → x ≠ i → ¬ poss[x].getLsbD d.val = true := by
          intro x hx hne
          rw [hposs]
          exact g2 _ (mini_block' chute i x hx hne)
        refine unique_iff (i := i) ?_ (by rw [hposs]; exact g1) (ot _ ?_) (ot _ ?_) (ot _ ?_) ?_ ?_ ?_
        · simp only [Fin.ext_iff]; omega
        · dsimp only; omega
        · dsimp only; omega
        · dsimp only; omega
        · simp only [ne_eq, Fin.ext_iff]; omega
        · simp only [ne_eq, Fin.ext_iff]; omega
        · simp only [ne_eq, Fin.ext_iff]; omega
      refine hq (_, ln, true) (mem_filter_ne (Or.inr rfl) ?_) d hbit l hl
      dsimp only
      rw [Bool.not_eq_true', Bool.eq_false_iff, ne_eq, isEmpty_iff (by omega)]
      exact ne_zero_iff.mpr ⟨_, hbit⟩

theorem locked_quiet {cp : Vector DigitSet 81} (hf : ∀ c : Fin 81, Fits 9 cp[c]) (stop : Bool)
    (hstop : stop = false ∨ ∀ e, Sel e) :
    Quiet Sel (forUntil (lockedChute cp stop) (List.finRange 6)) (∀ d m isP l, LockedAt cp d m isP l → ¬ Hit Sel l) := by
  refine (forUntil_quiet (P := fun chute => ∀ i ∈ List.finRange 9, ∀ d isP l, LockedAt cp d (ml chute i) isP l →
    ¬ Hit Sel l) _ ?_).mono ?_
  · intro chute _
    unfold lockedChute
    have hl : (Pos.minilines chute).mapM (minilineDigits cp) =
        .ok ((List.finRange 9).map (fun i => miniPoss cp (ml chute i))) := by
      rw [Res.mapM_ok _ (miniPoss cp)]
      · unfold Pos.minilines
        rw [List.map_map]
        rfl
      · intro m _
        unfold minilineDigits
        rw [items_eq (by omega) (by omega) (fits_mini m), Res.ok_bind]
        rfl
    rw [hl]
    simp only [Res.ok_bind]
    rw [funext (fun s => dif_pos (by simp))]
    exact forUntil_quiet _ (fun i _ => lockedMiniline_quiet hf stop hstop (by intro j; simp) i)
  · intro h d m isP l
    have := h ⟨m.val / 9, by omega⟩ (List.mem_finRange _) ⟨m.val % 9, by omega⟩ (List.mem_finRange _) d isP l
    have e : ml ⟨m.val / 9, by omega⟩ ⟨m.val % 9, by omega⟩ = m := by
      apply Fin.ext
      simp only [ml]
      omega
    rwa [e] at this

/-! ## Wings -/

theorem areas_bits : ∀ h c : Fin 81,
    ((wingAreas h).1.1.getLsbD c.val = true ↔ blockOf c = blockOf h ∧ rowOf c ≠ rowOf h) ∧
    ((wingAreas h).1.2.getLsbD c.val = true ↔ rowOf c = rowOf h ∧ blockOf c ≠ blockOf h) ∧
    ((wingAreas h).2.1.1.getLsbD c.val = true ↔ blockOf c = blockOf h ∧ colOf c ≠ colOf h) ∧
    ((wingAreas h).2.1.2.getLsbD c.val = true ↔ colOf c = colOf h ∧ blockOf c ≠ blockOf h) ∧
    ((wingAreas h).2.2.1.getLsbD c.val = true ↔ rowOf c = rowOf h ∧ blockOf c ≠ blockOf h) ∧
    ((wingAreas h).2.2.2.getLsbD c.val = true ↔ colOf c = colOf h ∧ blockOf c ≠ blockOf h) := by decide +kernel

theorem row_col_ne : ∀ {h c : Fin 81}, h ≠ c → rowOf c = rowOf h → colOf c = colOf h → False := by
  intro h c hne h1 h2
  unfold rowOf colOf at *
  exact hne (Fin.ext (by omega))

/-- Two pincers that do not see each other are in different areas. -/
theorem areas_cover {h a b : Fin 81} (ha : Pattern.Sees h a) (hb : Pattern.Sees h b) (hne : a ≠ b)
    (hab : ¬ Pattern.Sees a b) : ∃ x ∈ [(wingAreas h).1, (wingAreas h).2.1, (wingAreas h).2.2],
      (x.1.getLsbD a.val = true ∧ x.2.getLsbD b.val = true) ∨ (x.1.getLsbD b.val = true ∧ x.2.getLsbD a.val = true) := by
  obtain ⟨a1, a2, a3, a4, a5, a6⟩ := areas_bits h a
  obtain ⟨b1, b2, b3, b4, b5, b6⟩ := areas_bits h b
  have na := row_col_ne ha.1
  have nb := row_col_ne hb.1
  have hab : ¬ SameHouse a b := fun h => hab ⟨hne, h⟩
  have ha := ha.2
  have hb := hb.2
  unfold SameHouse at ha hb hab
  simp only [List.mem_cons, List.not_mem_nil, or_false, exists_eq_or_imp, exists_eq_left, a1, a2, a3, a4, a5, a6, b1, b2,
    b3, b4, b5, b6]
  by_cases r1 : rowOf a = rowOf h <;> by_cases r2 : rowOf b = rowOf h <;> by_cases c1 : colOf a = colOf h <;>
    by_cases c2 : colOf b = colOf h <;> by_cases k1 : blockOf a = blockOf h <;> by_cases k2 : blockOf b = blockOf h <;>
    simp_all <;> omega

theorem WingOK.swap {cp : Vector DigitSet 81} {withZ : Bool} {hinge p1 p2 : Fin 81} {x y z : Digit}
    (hw : WingOK cp withZ hinge p1 p2 x y z) : WingOK cp withZ hinge p2 p1 y x z :=
  ⟨hw.ne.symm, hw.sees2, hw.sees1, hw.xy.symm, hw.yz, hw.xz, hw.c2, hw.c1, fun d => (hw.ch d).trans (by tauto)⟩

theorem fset_inter {a b : DigitSet} : fset (inter a b) 9 = fset a 9 ∩ fset b 9 := by
  ext i
  rw [Finset.mem_inter, mem_fset, mem_fset, mem_fset, bit_inter, Bool.and_eq_true]

theorem fset_union {a b : DigitSet} : fset (union a b) 9 = fset a 9 ∪ fset b 9 := by
  ext i
  rw [Finset.mem_union, mem_fset, mem_fset, mem_fset, bit_union, Bool.or_eq_true]

theorem len_fset {a : DigitSet} (hf : Fits 9 a) {size : UInt8} : len a = size ↔ (fset a 9).card = size.toNat := by
  rw [len_eq_iff, card_fset hf]

/-- The numbers that the search compares. -/
theorem WingOK.lens {cp : Vector DigitSet 81} (hf : ∀ c : Fin 81, Fits 9 cp[c]) {withZ : Bool} {hinge p1 p2 : Fin 81}
    {x y z : Digit} (hw : WingOK cp withZ hinge p1 p2 x y z) :
    len cp[p1] = 2 ∧ len cp[p2] = 2 ∧ (len cp[hinge] = if withZ then 3 else 2) ∧
    (len (inter cp[hinge] cp[p1]) = if withZ then 2 else 1) ∧ (len (inter cp[hinge] cp[p2]) = if withZ then 2 else 1) ∧
    len (inter cp[p1] cp[p2]) = 1 ∧ len (union (union cp[p1] cp[p2]) cp[hinge]) = 3 ∧
    uniqueUnwrap (inter cp[p1] cp[p2]) = .ok z := by
  have xy := hw.xy
  have xz := hw.xz
  have yz := hw.yz
  have e1 : fset cp[p1] 9 = {x, z} := by ext d; rw [mem_fset, hw.c1]; simp
  have e2 : fset cp[p2] 9 = {y, z} := by ext d; rw [mem_fset, hw.c2]; simp
  have e3 : fset cp[hinge] 9 = if withZ then {x, y, z} else {x, y} := by
    ext d; rw [mem_fset, hw.ch]; cases withZ <;> simp
  have i1 : ({x, z} ∩ {y, z} : Finset Digit) = {z} := by ext d; simp only [Finset.mem_inter, Finset.mem_insert, Finset.mem_singleton]; constructor
                                                         · rintro ⟨h | h, h' | h'⟩ <;> simp_all
                                                         · rintro rfl; simp
  rw [len_fset (hf _), len_fset (hf _), len_fset (hf _), len_fset (hf _).inter_left, len_fset (hf _).inter_left,
    len_fset (hf _).inter_left, len_fset (((hf _).union (hf _)).union (hf _))]
  rw [fset_inter, fset_inter, fset_inter, fset_union, fset_union, e1, e2, e3, i1]
  refine ⟨Finset.card_pair xz, Finset.card_pair yz, ?_, ?_, ?_, by simp, ?_, ?_⟩
  · cases withZ
    · exact Finset.card_pair xy
    · exact Finset.card_eq_three.mpr ⟨x, y, z, xy, xz, yz, rfl⟩
  · cases withZ
    · rw [show (if false = true then ({x, y, z} : Finset Digit) else {x, y}) ∩ {x, z} = {x} by
        ext d; simp only [Bool.false_eq_true, if_false, Finset.mem_inter, Finset.mem_insert, Finset.mem_singleton]
        constructor
        · rintro ⟨h | h, h' | h'⟩ <;> simp_all
        · rintro rfl; simp]
      simp
    · rw [show (if true = true then ({x, y, z} : Finset Digit) else {x, y}) ∩ {x, z} = {x, z} by
        ext d; simp only [if_true, Finset.mem_inter, Finset.mem_insert, Finset.mem_singleton]
        tauto]
      exact Finset.card_pair xz
  · cases withZ
    · rw [show (if false = true then ({x, y, z} : Finset Digit) else {x, y}) ∩ {y, z} = {y} by
        ext d; simp only [Bool.false_eq_true, if_false, Finset.mem_inter, Finset.mem_insert, Finset.mem_singleton]
        constructor
        · rintro ⟨h | h, h' | h'⟩ <;> simp_all
        · rintro rfl; simp]
      simp
    · rw [show (if true = true then ({x, y, z} : Finset Digit) else {x, y}) ∩ {y, z} = {y, z} by
        ext d; simp only [if_true, Finset.mem_inter, Finset.mem_insert, Finset.mem_singleton]
        tauto]
      exact Finset.card_pair yz
  · rw [show ({x, z} ∪ {y, z} ∪ if withZ = true then ({x, y, z} : Finset Digit) else {x, y}) = {x, y, z} by
      ext d; cases withZ <;> simp only [Bool.false_eq_true, if_false, if_true, Finset.mem_union, Finset.mem_insert, Finset.mem_singleton] <;> tauto]
    exact Finset.card_eq_three.mpr ⟨x, y, z, xy, xz, yz, rfl⟩
  · refine uniqueUnwrap_ok fun i => ?_
    constructor
    · intro hi
      have hi9 := (hf p1).inter_left i hi
      have : (⟨i, hi9⟩ : Digit) ∈ fset (inter cp[p1] cp[p2]) 9 := mem_fset.mpr hi
      rw [fset_inter, e1, e2, i1, Finset.mem_singleton] at this
      exact congrArg Fin.val this
    · rintro rfl
      rw [← mem_fset, fset_inter, e1, e2]
      simp

theorem wingPairs_quiet {cp : Vector DigitSet 81} (hf : ∀ c : Fin 81, Fits 9 cp[c]) (withZ stop : Bool)
    (hstop : stop = false ∨ ∀ e, Sel e)
    {onWing : Solver → Fin 81 → Fin 81 → Res (Solver × Bool)} {hinge : Fin 81} {P : Fin 81 → Fin 81 → Digit → Prop}
    {a : Pos.Cells × Pos.Cells} (ha : WingArea hinge a) (l3 : len cp[hinge] = if withZ then 3 else 2)
    (hon : ∀ p1 p2 x y z, WingOK cp withZ hinge p1 p2 x y z → a.1.getLsbD p1.val = true → a.2.getLsbD p2.val = true →
      Soft Sel (fun s => onWing s p1 p2) (P p1 p2 z)) :
    Quiet Sel (fun s => wingPairs cp stop (if withZ then 2 else 1) onWing hinge s a)
      (∀ p1 p2 x y z, a.1.getLsbD p1.val = true → a.2.getLsbD p2.val = true → WingOK cp withZ hinge p1 p2 x y z →
        P p1 p2 z) := by
  unfold wingPairs bivalueCells
  rw [items_eq (by omega) (by omega) ha.1, items_eq (by omega) (by omega) ha.2.1]
  simp only [Res.ok_bind]
  refine (forUntil_quiet _ (fun p1 h1 => forUntil_quiet (P := fun p2 => ∀ x y z, WingOK cp withZ hinge p1 p2 x y z →
    P p1 p2 z) _ (fun p2 h2 => ?_))).mono ?_
  · rw [List.mem_filter, mem_mems, Bool.and_eq_true, beq_iff_eq, beq_iff_eq] at h1 h2
    by_cases hne : len (inter cp[p1] cp[p2]) ≠ 1 ∨ len (union (union cp[p1] cp[p2]) cp[hinge]) ≠ 3
    · simp only [if_pos hne]
      refine Quiet.skip fun x y z hw => ?_
      obtain ⟨_, _, _, _, _, g1, g2, _⟩ := hw.lens hf
      exact absurd hne (by rw [not_or, not_not, not_not]; exact ⟨g1, g2⟩)
    · simp only [if_neg hne]
      rw [not_or, not_not, not_not] at hne
      obtain ⟨x, y, z, hw, hu⟩ := wingOK_of hf withZ ha h1.1 h2.1 h1.2.1 h2.2.1 l3 h1.2.2 h2.2.2 hne.1 hne.2
      refine (Soft.stopped (hon p1 p2 x y z hw h1.1 h2.1) (fun b => b && stop) (by simp)
        (hstop.imp_left (by rintro rfl; simp))).mono fun h x' y' z' hw' => ?_
      obtain ⟨_, _, _, _, _, _, _, hu'⟩ := hw'.lens hf
      rw [hu] at hu'
      cases hu'
      exact h
  · intro h p1 p2 x y z h1 h2 hw
    obtain ⟨l1, l2, _, i1, i2, _⟩ := hw.lens hf
    refine h p1 ?_ p2 ?_ x y z hw
    · rw [List.mem_filter, mem_mems, Bool.and_eq_true, beq_iff_eq, beq_iff_eq]
      exact ⟨h1, l1, i1⟩
    · rw [List.mem_filter, mem_mems, Bool.and_eq_true, beq_iff_eq, beq_iff_eq]
      exact ⟨h2, l2, i2⟩

/-- What a wing pattern without pincers seeing each other says about the candidates. -/
theorem wing_of {cp : Vector DigitSet 81} {withZ : Bool} {hinge : Fin 81} {hd : DigitSet} {pincers : Pos.Cells}
    {l : List Candidate} (h : Pattern.Wing (Cands cp) withZ hinge hd pincers l) (hit : Hit Sel l)
    (hs : ∀ c c' : Fin 81, Pattern.Has pincers c → Pattern.Has pincers c' → ¬ Pattern.Sees c c') :
    ∃ p1 p2 x y z, WingOK cp withZ hinge p1 p2 x y z ∧ ¬ Pattern.Sees p1 p2 ∧ ∃ c, Sel ⟨c, z⟩ ∧ Cands cp c z ∧ Pattern.Sees c p1 ∧
      Pattern.Sees c p2 ∧ (withZ = true → Pattern.Sees c hinge) := by
  obtain ⟨p1, p2, x, y, z, hne, hp, s1, s2, xy, xz, yz, c1, c2, ch, _, _, hmem⟩ := h
  refine ⟨p1, p2, x, y, z, ⟨hne, s1, s2, xy, xz, yz, c1, c2, ch⟩, hs p1 p2 ((hp _).mpr (Or.inl rfl))
    ((hp _).mpr (Or.inr rfl)), ?_⟩
  obtain ⟨e, he, hsel⟩ := hit
  obtain ⟨⟨h1, h2, h3, h4⟩, h5⟩ := (hmem e.cell e.digit).mp he
  rw [h1] at h5
  exact ⟨e.cell, by rw [← h1]; exact hsel, h5, h2, h3, h4⟩

theorem xyWing_quiet {cp : Vector DigitSet 81} (hf : ∀ c : Fin 81, Fits 9 cp[c]) (stop : Bool)
    (hstop : stop = false ∨ ∀ e, Sel e) :
    Quiet Sel (forUntil (fun s' hinge =>
      if len cp[hinge] ≠ 2 then .ok (s', false)
      else
        let areas := wingAreas hinge
        forUntil (wingPairs cp stop 1 (onXyWing cp hinge) hinge) [areas.1, areas.2.1, areas.2.2] s')
      (List.finRange 81)) (∀ hinge hd pincers l, Pattern.Wing (Cands cp) false hinge hd pincers l →
        (∀ c c' : Fin 81, Pattern.Has pincers c → Pattern.Has pincers c' → ¬ Pattern.Sees c c') → ¬ Hit Sel l) := by
  refine (forUntil_quiet (P := fun hinge => ∀ a ∈ [(wingAreas hinge).1, (wingAreas hinge).2.1, (wingAreas hinge).2.2],
    ∀ p1 p2 x y z, a.1.getLsbD p1.val = true → a.2.getLsbD p2.val = true → WingOK cp false hinge p1 p2 x y z →
      ∀ c, Pattern.Sees c p1 → Pattern.Sees c p2 → Sel ⟨c, z⟩ → ¬ Cands cp c z) _ ?_).mono ?_
  · intro hinge _
    by_cases hlen : len cp[hinge] ≠ 2
    · simp only [if_pos hlen]
      refine Quiet.skip fun a _ p1 p2 x y z _ _ hw => ?_
      exact absurd (hw.lens hf).2.2.1 hlen
    · simp only [if_neg hlen]
      rw [not_not] at hlen
      refine forUntil_quiet _ fun a ha => ?_
      refine wingPairs_quiet (P := fun p1 p2 z => ∀ c, Pattern.Sees c p1 → Pattern.Sees c p2 → Sel ⟨c, z⟩ → ¬ Cands cp c z) hf false stop hstop
        (wingArea_spec hinge a ha) hlen ?_
      intro p1 p2 x y z hw _ _
      refine Soft.enter fun s => ?_
      unfold onXyWing
      rw [(hw.lens hf).2.2.2.2.2.2.2, Res.ok_bind,
        items_eq (by omega) (by omega) (fits_neighbors p1).inter_left, Res.ok_bind]
      refine ⟨_, _, rfl, fun hl c h1 h2 hsel hc => ?_⟩
      have := (mem_onWing (cp := cp) (z := z) (e := ⟨c, z⟩)
        (cells := inter (Pos.neighborsSet p1) (Pos.neighborsSet p2))).mpr ⟨⟨rfl, by
          rw [bit_inter, Bool.and_eq_true, bit_neighbors, bit_neighbors]; exact ⟨h1, h2⟩⟩, hc⟩
      exact hl _ this hsel
  · intro h hinge hd pincers l hw hs hit
    obtain ⟨p1, p2, x, y, z, hw, hns, c, hsel, hc, h1, h2, _⟩ := wing_of hw hit hs
    obtain ⟨a, ha, hpos⟩ := areas_cover hw.sees1 hw.sees2 hw.ne hns
    rcases hpos with ⟨g1, g2⟩ | ⟨g1, g2⟩
    · exact h hinge (List.mem_finRange _) a ha p1 p2 x y z g1 g2 hw c h1 h2 hsel hc
    · exact h hinge (List.mem_finRange _) a ha p2 p1 y x z g1 g2 hw.swap c h2 h1 hsel hc

theorem bit_rowCol : ∀ h c : Fin 81, ((Pos.rowCells (Pos.cellRow h)).getLsbD c.val = true ↔ rowOf c = rowOf h) ∧
    ((Pos.colCells (Pos.cellCol h)).getLsbD c.val = true ↔ colOf c = colOf h) := by decide +kernel

/-- No cell sees a hinge and pincers in the row and in the column outside the block. -/
theorem no_common {h p1 p2 c : Fin 81} (h1 : (wingAreas h).2.2.1.getLsbD p1.val = true)
    (h2 : (wingAreas h).2.2.2.getLsbD p2.val = true) (hc : Pattern.Sees c h) (hc1 : Pattern.Sees c p1)
    (hc2 : Pattern.Sees c p2) : False := by
  have e1 := congrArg (fun x => x.getLsbD c.val) ((xyz_line h p1).1 h1)
  have e2 := congrArg (fun x => x.getLsbD c.val) ((xyz_line h p2).2 h2)
  rw [bit_inter, (bit_neighbors h c).mpr hc, (bit_neighbors _ c).mpr hc1, bit_without, bit_without, Bool.and_self, eq_comm,
    Bool.and_eq_true, Bool.and_eq_true] at e1
  rw [bit_inter, (bit_neighbors h c).mpr hc, (bit_neighbors _ c).mpr hc2, bit_without, bit_without, Bool.and_self, eq_comm,
    Bool.and_eq_true, Bool.and_eq_true] at e2
  exact row_col_ne hc.1.symm ((bit_rowCol h c).1.mp e1.1.1) ((bit_rowCol h c).2.mp e2.1.1)

theorem xyzWing_quiet {cp : Vector DigitSet 81} (hf : ∀ c : Fin 81, Fits 9 cp[c]) (stop : Bool)
    (hstop : stop = false ∨ ∀ e, Sel e) :
    Quiet Sel (forUntil (fun s' hinge =>
      if len cp[hinge] ≠ 3 then .ok (s', false)
      else
        let areas := wingAreas hinge
        forUntil (wingPairs cp stop 2 (onXyzWing cp hinge) hinge) [areas.1, areas.2.1] s')
      (List.finRange 81)) (∀ hinge hd pincers l, Pattern.Wing (Cands cp) true hinge hd pincers l →
        (∀ c c' : Fin 81, Pattern.Has pincers c → Pattern.Has pincers c' → ¬ Pattern.Sees c c') → ¬ Hit Sel l) := by
  refine (forUntil_quiet (P := fun hinge => ∀ a ∈ [(wingAreas hinge).1, (wingAreas hinge).2.1],
    ∀ p1 p2 x y z, a.1.getLsbD p1.val = true → a.2.getLsbD p2.val = true → WingOK cp true hinge p1 p2 x y z →
      ∀ c, Pattern.Sees c p1 → Pattern.Sees c p2 → Pattern.Sees c hinge → Sel ⟨c, z⟩ → ¬ Cands cp c z) _ ?_).mono ?_
  · intro hinge _
    by_cases hlen : len cp[hinge] ≠ 3
    · simp only [if_pos hlen]
      refine Quiet.skip fun a _ p1 p2 x y z _ _ hw => ?_
      exact absurd (hw.lens hf).2.2.1 hlen
    · simp only [if_neg hlen]
      rw [not_not] at hlen
      refine forUntil_quiet _ fun a ha => ?_
      refine wingPairs_quiet (P := fun p1 p2 z => ∀ c, Pattern.Sees c p1 → Pattern.Sees c p2 → Pattern.Sees c hinge →
        Sel ⟨c, z⟩ → ¬ Cands cp c z) hf true stop hstop
        (wingArea_spec hinge a (by simp only [List.mem_cons, List.not_mem_nil, or_false] at ha ⊢; tauto)) hlen ?_
      intro p1 p2 x y z hw g1 g2
      refine Soft.enter fun s => ?_
      unfold onXyzWing
      rw [(hw.lens hf).2.2.2.2.2.2.2, Res.ok_bind]
      dsimp only
      rw [xyz_common hinge p1 p2 a ha g1 g2, Res.assert_true, Res.ok_bind,
        items_eq (by omega) (by omega) (fits_neighbors hinge).inter_left.inter_left, Res.ok_bind]
      refine ⟨_, _, rfl, fun hl c h1 h2 h3 hsel hc => ?_⟩
      have := (mem_onWing (cp := cp) (z := z) (e := ⟨c, z⟩)
        (cells := inter (inter (Pos.neighborsSet hinge) (Pos.neighborsSet p1)) (Pos.neighborsSet p2))).mpr ⟨⟨rfl, by
          rw [bit_inter, Bool.and_eq_true, bit_inter, Bool.and_eq_true, bit_neighbors, bit_neighbors, bit_neighbors]
          exact ⟨⟨h3, h1⟩, h2⟩⟩, hc⟩
      exact hl _ this hsel
  · intro h hinge hd pincers l hw hs hit
    obtain ⟨p1, p2, x, y, z, hw, hns, c, hsel, hc, h1, h2, h3⟩ := wing_of hw hit hs
    obtain ⟨a, ha, hpos⟩ := areas_cover hw.sees1 hw.sees2 hw.ne hns
    have h3 := h3 rfl
    by_cases ha' : a ∈ [(wingAreas hinge).1, (wingAreas hinge).2.1]
    · rcases hpos with ⟨g1, g2⟩ | ⟨g1, g2⟩
      · exact h hinge (List.mem_finRange _) a ha' p1 p2 x y z g1 g2 hw c h1 h2 h3 hsel hc
      · exact h hinge (List.mem_finRange _) a ha' p2 p1 y x z g1 g2 hw.swap c h2 h1 h3 hsel hc
    · have : a = (wingAreas hinge).2.2 := by
        simp only [List.mem_cons, List.not_mem_nil, or_false] at ha ha'
        tauto
      subst this
      rcases hpos with ⟨g1, g2⟩ | ⟨g1, g2⟩
      · exact no_common g1 g2 h3 h1 h2
      · exact no_common g1 g2 h3 h2 h1

end Verif.Strat
