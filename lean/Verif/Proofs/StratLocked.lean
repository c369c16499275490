import Verif.Proofs.StratFish

/-! # The strategy solver: locked candidates -/
namespace Verif.Strat

open Bitset Generator

/-- The miniline `i` of a chute. -/
def ml (chute : Fin 6) (i : Fin 9) : Fin 54 := ⟨chute.val * 9 + i.val, by omega⟩

theorem inMini : ∀ (m : Fin 54) (c : Fin 81), (Pos.miniLineCells m).getLsbD c.val = true ↔
    Pattern.InHouse (Pattern.miniLine m) c ∧ Pattern.InHouse (Pattern.miniBlock m) c := by decide +kernel

theorem fits_mini (m : Fin 54) : Fits 81 (Pos.miniLineCells m) := by
  have : ∀ (m : Fin 54) (i : Fin 128), (Pos.miniLineCells m).getLsbD i.val = true → i.val < 81 := by decide +kernel
  intro i hi
  exact this m ⟨i, BitVec.lt_of_getLsbD hi⟩ hi

theorem mini_line : ∀ (chute : Fin 6) (i : Fin 9) (c : Fin 81), Pattern.InHouse (Pattern.miniLine (ml chute i)) c →
    ∃ j : Fin 9, j.val / 3 = i.val / 3 ∧ (Pos.miniLineCells (ml chute j)).getLsbD c.val = true := by decide +kernel

theorem mini_block : ∀ (chute : Fin 6) (i : Fin 9) (c : Fin 81), Pattern.InHouse (Pattern.miniBlock (ml chute i)) c →
    ∃ j : Fin 9, j.val % 3 = i.val % 3 ∧ (Pos.miniLineCells (ml chute j)).getLsbD c.val = true := by decide +kernel

theorem mini_lt : ∀ m : Fin 54, Pattern.miniLine m < 27 ∧ Pattern.miniBlock m < 27 := by decide +kernel

/-- The neighbours of a miniline are the other minilines of its line and of its block. -/
def NeighborsOK (m : Fin 54) (n : Nat × Nat) (h1 h2 : Nat) : Prop :=
  ∃ n1 n2 : Fin 54, n = (n1.val, n2.val) ∧ ∀ c : Fin 81,
    ((Pos.miniLineCells n1).getLsbD c.val = true ∨ (Pos.miniLineCells n2).getLsbD c.val = true) ↔
    Pattern.InHouse h2 c ∧ ¬ Pattern.InHouse h1 c

theorem neighbors_table : ∀ m : Fin 54, ∃ x y z w : Fin 54,
    PosTables.minilineNeighbors[m.val]? = some ((x.val, y.val), (z.val, w.val)) := by
  have : ∀ m : Fin 54, (match PosTables.minilineNeighbors[m.val]? with
    | none => false
    | some ((x, y), (z, w)) => decide (x < 54 ∧ y < 54 ∧ z < 54 ∧ w < 54)) = true := by decide +kernel
  intro m
  have h := this m
  split at h
  · cases h
  · rename_i x y z w he
    obtain ⟨h1, h2, h3, h4⟩ := of_decide_eq_true h
    exact ⟨⟨x, h1⟩, ⟨y, h2⟩, ⟨z, h3⟩, ⟨w, h4⟩, he⟩

theorem neighbors_cells : ∀ m : Fin 54, (match PosTables.minilineNeighbors[m.val]? with
    | none => true
    | some ((x, y), (z, w)) => if h : x < 54 ∧ y < 54 ∧ z < 54 ∧ w < 54 then decide (∀ c : Fin 81,
      (((Pos.miniLineCells ⟨x, h.1⟩).getLsbD c.val = true ∨ (Pos.miniLineCells ⟨y, h.2.1⟩).getLsbD c.val = true) ↔
        Pattern.InHouse (Pattern.miniLine m) c ∧ ¬ Pattern.InHouse (Pattern.miniBlock m) c) ∧
      (((Pos.miniLineCells ⟨z, h.2.2.1⟩).getLsbD c.val = true ∨ (Pos.miniLineCells ⟨w, h.2.2.2⟩).getLsbD c.val = true) ↔
        Pattern.InHouse (Pattern.miniBlock m) c ∧ ¬ Pattern.InHouse (Pattern.miniLine m) c)) else true) = true := by
  decide +kernel

theorem minilineNeighbors_spec (m : Fin 54) : ∃ ln fn, Pos.minilineNeighbors m = some (ln, fn) ∧
    NeighborsOK m ln (Pattern.miniBlock m) (Pattern.miniLine m) ∧
    NeighborsOK m fn (Pattern.miniLine m) (Pattern.miniBlock m) := by
  obtain ⟨x, y, z, w, he⟩ := neighbors_table m
  refine ⟨_, _, he, ?_⟩
  have h := neighbors_cells m
  rw [he] at h
  dsimp only at h
  rw [dif_pos ⟨x.isLt, y.isLt, z.isLt, w.isLt⟩] at h
  have h := of_decide_eq_true h
  exact ⟨⟨x, y, rfl, fun c => (h c).1⟩, ⟨z, w, rfl, fun c => (h c).2⟩⟩

/-- The possible digits of the minilines. -/
def miniPoss (cp : Vector DigitSet 81) (m : Fin 54) : DigitSet :=
  (mems 81 (Pos.miniLineCells m)).foldl (fun acc c => union acc cp[c]) (NONE 16)

theorem bit_fold_union (cp : Vector DigitSet 81) (i : Nat) : ∀ (l : List (Fin 81)) (a : DigitSet),
    (l.foldl (fun acc c => union acc cp[c]) a).getLsbD i = true ↔ a.getLsbD i = true ∨ ∃ c ∈ l, cp[c].getLsbD i = true := by
  intro l
  induction l with
  | nil => intro a; simp
  | cons x xs ih =>
    intro a
    rw [List.foldl_cons, ih, bit_union, Bool.or_eq_true]
    simp [or_assoc]

theorem bit_miniPoss {cp : Vector DigitSet 81} {m : Fin 54} {i : Nat} : (miniPoss cp m).getLsbD i = true ↔
    ∃ c : Fin 81, (Pos.miniLineCells m).getLsbD c.val = true ∧ cp[c].getLsbD i = true := by
  unfold miniPoss
  rw [bit_fold_union, bit_none]
  simp [mem_mems]

theorem fits_miniPoss {cp : Vector DigitSet 81} (hf : ∀ c : Fin 81, Fits 9 cp[c]) (m : Fin 54) : Fits 9 (miniPoss cp m) := by
  intro i hi
  rw [bit_miniPoss] at hi
  obtain ⟨c, _, hc⟩ := hi
  exact hf c i hc

/-- A digit of exactly one of three sets. -/
theorem bit_unique {poss : Vector DigitSet 9} {i j k : Fin 9} {d : Nat} (h : (uniqueOf poss i j k).getLsbD d = true) :
    ¬ (poss[i].getLsbD d = true ∧ poss[j].getLsbD d = true) ∧ ¬ (poss[i].getLsbD d = true ∧ poss[k].getLsbD d = true) ∧
    ¬ (poss[j].getLsbD d = true ∧ poss[k].getLsbD d = true) := by
  unfold uniqueOf scanDigits at h
  simp only [List.foldl_cons, List.foldl_nil, bit_without, bit_union, bit_inter, bit_none] at h
  revert h
  generalize poss[i].getLsbD d = x
  generalize poss[j].getLsbD d = y
  generalize poss[k].getLsbD d = z
  revert x y z
  decide

theorem locked_refuted {cp : Vector DigitSet 81} {h1 h2 : Fin 27} {d : Digit}
    (hex : ∃ c, Pattern.InHouse h1 c ∧ cp[c].getLsbD d.val = true)
    (hall : ∀ c, Pattern.InHouse h1 c → cp[c].getLsbD d.val = true → Pattern.InHouse h2 c) {t : Grid} (ht : CpOK cp t)
    {c : Fin 81} (hc2 : Pattern.InHouse h2 c) (hc1 : ¬ Pattern.InHouse h1 c) : t[c] ≠ d.get := by
  intro he
  obtain ⟨p, hp⟩ := exists_pos ht.solved h1 d
  obtain ⟨c', hp, hin⟩ : ∃ c' : Fin 81, t[c'] = d.get ∧ Pattern.InHouse h1 c' := ⟨_, hp, (hca_inHouse h1 p).1⟩
  have same : ∀ {h : Fin 27} {a b : Fin 81}, Pattern.InHouse h a → Pattern.InHouse h b → SameHouse a b := by
    intro h a b ha hb
    obtain ⟨p, rfl, _⟩ := inHouse_hca ha
    obtain ⟨q, rfl, _⟩ := inHouse_hca hb
    exact sameHouse_of_hca q p h
  rcases ht.poss c' d hp with h0 | hb
  · obtain ⟨c'', h3, h4⟩ := hex
    have := ht.fresh c' c'' d (by rintro rfl; rw [h0] at h4; simp at h4) (same hin h3) h0 hp
    rw [h4] at this
    cases this
  · have := hall c' hin hb
    refine ht.solved.2 c c' (by rintro rfl; exact hc1 hin) (same hc2 this) ?_
    rw [he, hp]

theorem toFin_val {n : Nat} (i : Fin n) : toFin n i.val = .ok i := by
  unfold toFin
  rw [dif_pos i.isLt]

/-- The conflicts of locked candidates. -/
theorem onLocked_eq {cp : Vector DigitSet 81} (hf : ∀ c : Fin 81, Fits 9 cp[c]) (s : Solver) {m : Fin 54} {d : Digit}
    {n : Nat × Nat} {h1 h2 : Nat} (hn : NeighborsOK m n h1 h2) (isP : Bool) : ∃ l : List Candidate,
    onLocked cp s m d n isP = .ok (s.enterConflicts l (fun rg => .lockedCandidates d m isP rg)) ∧
    ∀ e, e ∈ l ↔ (e.digit = d ∧ Pattern.InHouse h2 e.cell ∧ ¬ Pattern.InHouse h1 e.cell) ∧
      cp[e.cell].getLsbD e.digit.val = true := by
  obtain ⟨n1, n2, rfl, hc⟩ := hn
  unfold onLocked
  dsimp only
  rw [toFin_val, Res.ok_bind, toFin_val, Res.ok_bind,
    flatMapM_ok (g := fun n => mems 81 (Pos.miniLineCells n)) _ (fun x _ => items_eq (by omega) (by omega) (fits_mini x)),
    Res.ok_bind, flatMapM_ok (g := fun c => (mems 9 (inter cp[c] (asSet 16 d.val))).map (fun d => (⟨c, d⟩ : Candidate))) _
      (fun c _ => cellConflicts_ok (hf c) _), Res.ok_bind]
  refine ⟨_, rfl, fun e => ?_⟩
  rw [List.mem_flatMap]
  constructor
  · rintro ⟨c, hcl, he⟩
    rw [mem_cellConflicts] at he
    obtain ⟨rfl, hb, hd⟩ := he
    rw [bit_asSet (by omega)] at hd
    simp only [List.flatMap_cons, List.flatMap_nil, List.append_nil, List.mem_append, mem_mems] at hcl
    exact ⟨⟨(Fin.ext hd).symm, (hc _).mp hcl⟩, hb⟩
  · rintro ⟨⟨hd, hh⟩, hb⟩
    refine ⟨e.cell, ?_, ?_⟩
    · simp only [List.flatMap_cons, List.flatMap_nil, List.append_nil, List.mem_append, mem_mems]
      exact (hc _).mpr hh
    · rw [mem_cellConflicts]
      exact ⟨rfl, hb, (bit_asSet (by omega)).mpr (by rw [hd])⟩

theorem onLocked_post {P : Candidate → Prop} {Q : Deduction (List Candidate) → Prop} {cp : Vector DigitSet 81}
    (hf : ∀ c : Fin 81, Fits 9 cp[c]) (s : Solver) {m : Fin 54} {d : Digit} {n : Nat × Nat} {h1 h2 : Nat}
    (hn : NeighborsOK m n h1 h2) (isP : Bool)
    (hP : ∀ c : Fin 81, Pattern.InHouse h2 c → ¬ Pattern.InHouse h1 c → cp[c].getLsbD d.val = true → P ⟨c, d⟩)
    (hQ : ∀ l : List Candidate, l ≠ [] → (∀ e, e ∈ l ↔ (e.digit = d ∧ Pattern.InHouse h2 e.cell ∧
      ¬ Pattern.InHouse h1 e.cell) ∧ cp[e.cell].getLsbD e.digit.val = true) → Q (.lockedCandidates d m isP l)) :
    Res.Post (onLocked cp s m d n isP) (fun r => Ext P Q s r.1) False := by
  obtain ⟨l, e1, hmem⟩ := onLocked_eq hf s (d := d) hn isP
  rw [e1]
  refine (enterConflicts_ext s (fun l => .lockedCandidates d m isP l) (slice_with fun rg elim => rfl) (fun _ => rfl)
    ?_ ?_).1
  · intro e he
    rw [hmem] at he
    obtain ⟨⟨hd, h2, h1⟩, hb⟩ := he
    obtain ⟨c, d'⟩ := e
    dsimp only at hd
    subst hd
    exact hP c h2 h1 hb
  · intro hn
    exact hQ _ hn hmem

/-- The digit is possible in the miniline, and in no other one of the line or block. -/
theorem locked_group {cp : Vector DigitSet 81} {chute : Fin 6} {i : Fin 9} {d : Nat} {f : Fin 9 → Nat} {h1 h2 : Nat}
    (hcover : ∀ c, Pattern.InHouse h1 c → ∃ j : Fin 9, f j = f i ∧ (Pos.miniLineCells (ml chute j)).getLsbD c.val = true)
    (hmini : ∀ c : Fin 81, (Pos.miniLineCells (ml chute i)).getLsbD c.val = true →
      Pattern.InHouse h1 c ∧ Pattern.InHouse h2 c)
    (hd : (miniPoss cp (ml chute i)).getLsbD d = true)
    (hother : ∀ j, f j = f i → j ≠ i → ¬ (miniPoss cp (ml chute j)).getLsbD d = true) :
    (∃ c, Pattern.InHouse h1 c ∧ cp[c].getLsbD d = true) ∧
    (∀ c, Pattern.InHouse h1 c → cp[c].getLsbD d = true → Pattern.InHouse h2 c) := by
  constructor
  · obtain ⟨c, hc, hb⟩ := bit_miniPoss.mp hd
    exact ⟨c, (hmini c hc).1, hb⟩
  · intro c hc hb
    obtain ⟨j, hj, hjc⟩ := hcover c hc
    by_cases hji : j = i
    · subst hji
      exact (hmini c hjc).2
    · exact absurd (bit_miniPoss.mpr ⟨c, hjc, hb⟩) (hother j hj hji)

theorem idx3 : ∀ (i j : Fin 9), j.val / 3 = i.val / 3 → j ≠ i →
    (i.val = i.val / 3 * 3 ∧ (j.val = i.val / 3 * 3 + 1 ∨ j.val = i.val / 3 * 3 + 2)) ∨
    (i.val = i.val / 3 * 3 + 1 ∧ (j.val = i.val / 3 * 3 ∨ j.val = i.val / 3 * 3 + 2)) ∨
    (i.val = i.val / 3 * 3 + 2 ∧ (j.val = i.val / 3 * 3 ∨ j.val = i.val / 3 * 3 + 1)) := by decide

theorem idx3' : ∀ (i j : Fin 9), j.val % 3 = i.val % 3 → j ≠ i →
    (i.val = i.val % 3 ∧ (j.val = 3 + i.val % 3 ∨ j.val = 6 + i.val % 3)) ∨
    (i.val = 3 + i.val % 3 ∧ (j.val = i.val % 3 ∨ j.val = 6 + i.val % 3)) ∨
    (i.val = 6 + i.val % 3 ∧ (j.val = i.val % 3 ∨ j.val = 3 + i.val % 3)) := by decide

theorem unique_other {poss : Vector DigitSet 9} {x y z i j : Fin 9} {d : Nat}
    (h : (uniqueOf poss x y z).getLsbD d = true) (hi : poss[i].getLsbD d = true)
    (hij : (i = x ∧ (j = y ∨ j = z)) ∨ (i = y ∧ (j = x ∨ j = z)) ∨ (i = z ∧ (j = x ∨ j = y))) :
    ¬ poss[j].getLsbD d = true := by
  obtain ⟨h1, h2, h3⟩ := bit_unique h
  intro hj
  rcases hij with ⟨rfl, rfl | rfl⟩ | ⟨rfl, rfl | rfl⟩ | ⟨rfl, rfl | rfl⟩ <;> tauto

theorem lockedMiniline_post {P : Candidate → Prop} {Q : Deduction (List Candidate) → Prop} {cp : Vector DigitSet 81}
    (hf : ∀ c : Fin 81, Fits 9 cp[c]) (stop : Bool) {poss : Vector DigitSet 9} {chute : Fin 6}
    (hposs : ∀ i : Fin 9, poss[i] = miniPoss cp (ml chute i)) (i : Fin 9) (s0 s : Solver) (hs : Ext P Q s0 s)
    (hP : ∀ (h1 h2 : Fin 27) (d : Digit), (∃ c, Pattern.InHouse h1 c ∧ cp[c].getLsbD d.val = true) →
      (∀ c, Pattern.InHouse h1 c → cp[c].getLsbD d.val = true → Pattern.InHouse h2 c) →
      ∀ c : Fin 81, Pattern.InHouse h2 c → ¬ Pattern.InHouse h1 c → cp[c].getLsbD d.val = true → P ⟨c, d⟩)
    (hQ : ∀ (m : Fin 54) (isP : Bool) (h1 h2 : Nat), (h1 = if isP then Pattern.miniBlock m else Pattern.miniLine m) →
      (h2 = if isP then Pattern.miniLine m else Pattern.miniBlock m) →
      ∀ (d : Digit), (∃ c, Pattern.InHouse h1 c ∧ cp[c].getLsbD d.val = true) →
      (∀ c, Pattern.InHouse h1 c → cp[c].getLsbD d.val = true → Pattern.InHouse h2 c) →
      ∀ l : List Candidate, l ≠ [] → (∀ e, e ∈ l ↔ (e.digit = d ∧ Pattern.InHouse h2 e.cell ∧
        ¬ Pattern.InHouse h1 e.cell) ∧ cp[e.cell].getLsbD e.digit.val = true) → Q (.lockedCandidates d m isP l)) :
    Res.Post (lockedMiniline cp stop poss chute s i) (fun r => Ext P Q s0 r.1) False := by
  unfold lockedMiniline
  dsimp only
  change Res.Post (match Pos.minilineNeighbors (ml chute i) with
    | none => _
    | some (_, _) => _) _ _
  obtain ⟨ln, fn, he, h1, h2⟩ := minilineNeighbors_spec (ml chute i)
  rw [he]
  dsimp only
  refine forUntil_post (Ext P Q s0) _ s hs ?_
  rintro s' ⟨digits, n, isP⟩ hx hs'
  dsimp only
  have hx := List.mem_of_mem_filter hx
  have hfit : Fits 9 digits := by
    simp only [List.mem_cons, Prod.mk.injEq, List.not_mem_nil, or_false] at hx
    rcases hx with ⟨rfl, _⟩ | ⟨rfl, _⟩ <;> rw [hposs] <;> exact (fits_miniPoss hf _).inter_left
  rw [items_eq (by omega) (by omega) hfit, Res.ok_bind]
  refine forUntil_post (Ext P Q s0) _ s' hs' ?_
  intro s'' d hd hs''
  rw [mem_mems] at hd
  refine Res.Post.bind (P := fun r => Ext P Q s'' r.1) ?_ ?_
  · simp only [List.mem_cons, Prod.mk.injEq, List.not_mem_nil, or_false] at hx
    rcases hx with ⟨rfl, rfl, rfl⟩ | ⟨rfl, rfl, rfl⟩
    · rw [bit_inter, Bool.and_eq_true] at hd
      have hg := locked_group (cp := cp) (chute := chute) (i := i) (d := d.val) (f := fun j => j.val / 3)
        (h1 := Pattern.miniLine (ml chute i)) (h2 := Pattern.miniBlock (ml chute i))
        (mini_line chute i) (fun c hc => (inMini _ c).mp hc) (by rw [← hposs]; exact hd.1) (by
          intro j hj hne
          rw [← hposs]
          refine unique_other hd.2 hd.1 ?_
          have := idx3 i j hj hne
          simpa only [Fin.ext_iff] using this)
      refine onLocked_post hf s'' h2 false ?_ ?_
      · exact hP ⟨_, (mini_lt (ml chute i)).1⟩ ⟨_, (mini_lt (ml chute i)).2⟩ d hg.1 hg.2
      · exact hQ (ml chute i) false _ _ rfl rfl d hg.1 hg.2
    · rw [bit_inter, Bool.and_eq_true] at hd
      have hg := locked_group (cp := cp) (chute := chute) (i := i) (d := d.val) (f := fun j => j.val % 3)
        (h1 := Pattern.miniBlock (ml chute i)) (h2 := Pattern.miniLine (ml chute i))
        (mini_block chute i) (fun c hc => ((inMini _ c).mp hc).symm) (by rw [← hposs]; exact hd.1) (by
          intro j hj hne
          rw [← hposs]
          refine unique_other hd.2 hd.1 ?_
          have := idx3' i j hj hne
          simpa only [Fin.ext_iff] using this)
      refine onLocked_post hf s'' h1 true ?_ ?_
      · exact hP ⟨_, (mini_lt (ml chute i)).2⟩ ⟨_, (mini_lt (ml chute i)).1⟩ d hg.1 hg.2
      · exact hQ (ml chute i) true _ _ rfl rfl d hg.1 hg.2
  · rintro ⟨s3, found⟩ h3
    exact hs''.trans h3

theorem locked_search {s : Solver} (hf : ∀ c : Fin 81, Fits 9 s.cp[c]) (hrem : Removed s) (stop : Bool) :
    Res.Post (forUntil (lockedChute s.cp stop) (List.finRange 6) s)
      (fun r => Ext (NewElim s) (DedOf .lockedCandidates s.cp s.hp) s r.1) False := by
  refine forUntil_post (Ext (NewElim s) (DedOf .lockedCandidates s.cp s.hp) s) _ s (Ext.refl s) ?_
  intro s' chute _ hs'
  unfold lockedChute
  have hl : (Pos.minilines chute).mapM (minilineDigits s.cp) =
      .ok ((List.finRange 9).map (fun i => miniPoss s.cp (ml chute i))) := by
    rw [Res.mapM_ok _ (miniPoss s.cp)]
    · unfold Pos.minilines
      rw [List.map_map]
      rfl
    · intro m _
      unfold minilineDigits
      rw [items_eq (by omega) (by omega) (fits_mini m), Res.ok_bind]
      rfl
  rw [hl, Res.ok_bind, dif_pos (by simp)]
  refine forUntil_post (Ext (NewElim s) (DedOf .lockedCandidates s.cp s.hp) s) _ s' hs' ?_
  intro s'' i _ hs''
  refine lockedMiniline_post hf stop ?_ i s s'' hs'' ?_ ?_
  · intro j
    simp
  · intro h1 h2 d hex hall c hc2 hc1 hb
    exact ⟨hrem.notMem hb, fun t ht _ => locked_refuted hex hall ht hc2 hc1,
      Or.inl (ne_zero_iff.mpr ⟨_, hb⟩)⟩
  · intro m isP h1 h2 e1 e2 d hex hall l hl hmem
    refine ⟨rfl, rfl, fun _ => ?_⟩
    have : Pattern.Locked (Cands s.cp) d h1 h2 l := ⟨hex, hall, hl, fun c d => hmem ⟨c, d⟩⟩
    cases isP <;> simp only [if_true, Bool.false_eq_true, if_false] at e1 e2 <;> subst e1 e2
    · exact this
    · exact this

end Verif.Strat
