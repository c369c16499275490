import Verif.Proofs.StratIdle

/-! # The strategy solver: a candidate is excluded at most once when the searches stop at what they find -/
namespace Verif.Strat

open Bitset Generator

/-- The candidates `l` were entered in the list of excluded candidates, with one deduction. -/
def Added (s s' : Solver) (l : List Candidate) : Prop :=
  s'.eliminated = s.eliminated ++ l ∧ (l = [] ∧ s'.deductions = s.deductions ∨
    ∃ d : RangeDeduction, s'.deductions = s.deductions ++ [d] ∧ d.conf = some (s.eliminated.length, s'.eliminated.length))

theorem Added.refl (s : Solver) : Added s s [] := ⟨by simp, Or.inl ⟨rfl, rfl⟩⟩

/-- Nothing was entered. -/
def Added.Nothing (s s' : Solver) : Prop := s'.eliminated = s.eliminated ∧ s'.deductions = s.deductions

theorem Added.after {s s1 s2 : Solver} {l : List Candidate} (h : Added.Nothing s s1) (h' : Added s1 s2 l) :
    Added s s2 l := by
  obtain ⟨a, b⟩ := h
  obtain ⟨c, d⟩ := h'
  refine ⟨by rw [c, a], ?_⟩
  rw [← a, ← b]
  exact d

/-- What a search enters in the list of excluded candidates has no duplicates, and it stops as soon as it entered
something. -/
def Once (f : Solver → Res (Solver × Bool)) : Prop := ∀ s r, f s = .ok r →
  ∃ l : List Candidate, l.Nodup ∧ Added s r.1 l ∧ (r.2 = false → Added.Nothing s r.1)

/-- The same for looking at a combination. -/
def OnceVisit (f : Solver → Res (Solver × Option Bool)) : Prop := ∀ s r, f s = .ok r →
  ∃ l : List Candidate, l.Nodup ∧ Added s r.1 l ∧ (r.2 ≠ some true → Added.Nothing s r.1)

theorem Once.skip (b : Bool) : Once (fun s => .ok (s, b)) := by
  intro s r he
  cases he
  exact ⟨[], List.nodup_nil, Added.refl _, fun _ => ⟨rfl, rfl⟩⟩

theorem OnceVisit.skip (b : Option Bool) : OnceVisit (fun s => .ok (s, b)) := by
  intro s r he
  cases he
  exact ⟨[], List.nodup_nil, Added.refl _, fun _ => ⟨rfl, rfl⟩⟩

theorem Once.congr {f g : Solver → Res (Solver × Bool)} (h : Once f) (hfg : ∀ s, g s = f s) : Once g := by
  intro s r he
  rw [hfg] at he
  exact h s r he

theorem enterConflicts_once {l : List Candidate} (hl : l.Nodup) (mk : Nat × Nat → RangeDeduction)
    (hmk : ∀ rg, (mk rg).conf = some rg) :
    Once (fun s => .ok (s.enterConflicts l mk)) := by
  intro s r he
  cases he
  unfold Solver.enterConflicts
  dsimp only
  split
  · exact ⟨l, hl, ⟨rfl, Or.inr ⟨_, rfl, hmk _⟩⟩, fun h => by cases h⟩
  · rename_i h
    rw [List.length_append] at h
    have e : l = [] := List.length_eq_zero_iff.mp (by omega)
    subst e
    exact ⟨[], hl, ⟨rfl, Or.inl ⟨rfl, rfl⟩⟩, fun _ => ⟨by simp, rfl⟩⟩

theorem Once.enter {f : Solver → Res (Solver × Bool)}
    (hf : ∀ s, ∃ (l : List Candidate) (mk : Nat × Nat → RangeDeduction), f s = .ok (s.enterConflicts l mk) ∧ l.Nodup ∧
      ∀ rg, (mk rg).conf = some rg) :
    Once f := by
  intro s r he
  obtain ⟨l, mk, e, hn, hmk⟩ := hf s
  rw [e] at he
  exact enterConflicts_once hn mk hmk s r he

/-- The visit goes on only if nothing was found. -/
theorem OnceVisit.enter {f : Solver → Res (Solver × Bool)} (hf : Once f) {g : Solver × Bool → Res (Solver × Option Bool)}
    (hg : ∀ s, ∃ b, g (s, false) = .ok (s, b)) (hg' : ∀ s, g (s, true) = .ok (s, some true)) :
    OnceVisit (fun s => f s >>= g) := by
  intro s r he
  obtain ⟨⟨s1, b⟩, h1, h2⟩ := bind_ok he
  obtain ⟨l, k1, k2, k3⟩ := hf s _ h1
  cases b with
  | false =>
    obtain ⟨b, hb⟩ := hg s1
    rw [hb] at h2
    cases h2
    exact ⟨l, k1, k2, fun _ => k3 rfl⟩
  | true =>
    rw [hg'] at h2
    cases h2
    exact ⟨l, k1, k2, fun h => absurd rfl h⟩

theorem Once.stopped {f : Solver → Res (Solver × Bool)} (h : Once f) (g : Bool → Bool)
    (hg : g true = true) : Once (fun s => f s >>= fun r => .ok (r.1, g r.2)) := by
  intro s r he
  obtain ⟨⟨s1, b⟩, h1, h2⟩ := bind_ok he
  cases h2
  obtain ⟨l, k1, k2, k3⟩ := h s _ h1
  refine ⟨l, k1, k2, fun hr => k3 ?_⟩
  cases b
  · rfl
  · dsimp only at hr
    rw [hg] at hr
    cases hr

theorem forUntil_once {α : Type} {f : Solver → α → Res (Solver × Bool)} :
    ∀ l : List α, (∀ x ∈ l, Once (fun s => f s x)) → Once (forUntil f l) := by
  intro l
  induction l with
  | nil => intro _ s r he; cases he; exact ⟨[], List.nodup_nil, Added.refl _, fun _ => ⟨rfl, rfl⟩⟩
  | cons x xs ih =>
    intro h s r he
    unfold forUntil at he
    obtain ⟨⟨s1, stop⟩, h1, h2⟩ := bind_ok he
    obtain ⟨l, k1, k2, k3⟩ := h x (by simp) s _ h1
    dsimp only at h2 k2 k3
    split at h2
    · rename_i hs
      cases h2
      exact ⟨l, k1, k2, fun h => by cases h⟩
    · rename_i hs
      obtain ⟨l', j1, j2, j3⟩ := ih (fun y hy => h y (by simp [hy])) s1 r h2
      have k3 := k3 (by simpa using hs)
      exact ⟨l', j1, j2.after k3, fun hr => ⟨(j3 hr).1.trans k3.1, (j3 hr).2.trans k3.2⟩⟩

theorem walkLoop_once {α A : Type} {visit : A → Solver → Res (Solver × Option Bool)} {step : A → α → Res (Option A)}
    (I : A → Prop) : ∀ (l : List α), (∀ a, I a → OnceVisit (visit a)) →
      (∀ a, ∀ x ∈ l, I a → ∀ a', step a x = .ok (some a') → I a') → ∀ a, I a → Once (walkLoop visit step l a) := by
  intro l hv
  induction l with
  | nil => intro _ a _ s r he; cases he; exact ⟨[], List.nodup_nil, Added.refl _, fun _ => ⟨rfl, rfl⟩⟩
  | cons x xs ih =>
    intro hs a ha s r he
    have ih := ih (fun a y hy => hs a y (by simp [hy]))
    unfold walkLoop at he
    obtain ⟨st, h1, h2⟩ := bind_ok he
    cases st with
    | none => exact ih a ha s r h2
    | some a' =>
      dsimp only at h2
      obtain ⟨⟨s1, found⟩, h3, h4⟩ := bind_ok h2
      obtain ⟨⟨s2, v⟩, h5, h6⟩ := bind_ok h3
      have ha' := hs a x (by simp) ha a' h1
      obtain ⟨l, k1, k2, k3⟩ := hv a' ha' s _ h5
      dsimp only at k2 k3 h4
      have below : ∃ l : List Candidate, l.Nodup ∧ Added s s1 l ∧ (found = false → Added.Nothing s s1) := by
        cases v with
        | none =>
          dsimp only at h6
          obtain ⟨l', j1, j2, j3⟩ := ih a' ha' s2 _ h6
          have k3 := k3 (by simp)
          exact ⟨l', j1, j2.after k3, fun hr => ⟨(j3 hr).1.trans k3.1, (j3 hr).2.trans k3.2⟩⟩
        | some b =>
          dsimp only at h6
          cases h6
          refine ⟨l, k1, k2, fun hb => k3 ?_⟩
          rw [hb]
          simp
      obtain ⟨l', j1, j2, j3⟩ := below
      split at h4
      · cases h4
        exact ⟨l', j1, j2, fun h => by cases h⟩
      · rename_i hf
        obtain ⟨l', i1, i2, i3⟩ := ih a ha s1 r h4
        have k3 := j3 (by simpa using hf)
        exact ⟨l', i1, i2.after k3, fun hr => ⟨(i3 hr).1.trans k3.1, (i3 hr).2.trans k3.2⟩⟩

theorem walk_once {α A : Type} {visit : A → Solver → Res (Solver × Option Bool)} {step : A → α → Res (Option A)}
    (I : A → Prop) (l : List α) (hv : ∀ a, I a → OnceVisit (visit a))
    (hs : ∀ a, ∀ x ∈ l, I a → ∀ a', step a x = .ok (some a') → I a') (a : A) (ha : I a) : Once (walk visit step l a) := by
  intro s r he
  unfold walk at he
  obtain ⟨⟨s2, v⟩, h5, h6⟩ := bind_ok he
  obtain ⟨l', k1, k2, k3⟩ := hv a ha s _ h5
  dsimp only at k2 k3
  cases v with
  | none =>
    dsimp only at h6
    obtain ⟨l', j1, j2, j3⟩ := walkLoop_once I l hv hs a ha s2 r h6
    have k3 := k3 (by simp)
    exact ⟨l', j1, j2.after k3, fun hr => ⟨(j3 hr).1.trans k3.1, (j3 hr).2.trans k3.2⟩⟩
  | some b =>
    dsimp only at h6
    cases h6
    refine ⟨l', k1, k2, fun hb => k3 ?_⟩
    have hb : b = false := hb
    rw [hb]
    simp

/-! ## Lists without duplicates -/

theorem nodup_flatMap_of {α β : Type} {l : List α} {f : α → List β} (hl : l.Nodup) (h1 : ∀ x ∈ l, (f x).Nodup)
    (h2 : ∀ x ∈ l, ∀ y ∈ l, ∀ b, b ∈ f x → b ∈ f y → x = y) : (l.flatMap f).Nodup := by
  rw [List.nodup_flatMap]
  refine ⟨h1, ?_⟩
  refine hl.pairwise_of_forall_ne ?_
  intro x hx y hy hne b hb hb'
  exact hne (h2 x hx y hy b hb hb')

theorem nodup_cellConflicts (a : DigitSet) (c : Fin 81) : ((mems 9 a).map (fun d => (⟨c, d⟩ : Candidate))).Nodup :=
  (nodup_mems a).map fun x y h => by cases h; rfl

theorem nodup_cells {cells : List (Fin 81)} (h : cells.Nodup) (cp : Vector DigitSet 81) (d : Digit) :
    ((cells.filter (fun c => contains cp[c] (asSet 16 d.val))).map (fun c => (⟨c, d⟩ : Candidate))).Nodup :=
  (h.filter _).map fun x y h => by cases h; rfl

theorem onNaked_once {cp : Vector DigitSet 81} (hf : ∀ c : Fin 81, Fits 9 cp[c]) (h : Fin 27) (a : PosSet × DigitSet) :
    Once (fun s => onNakedSubset cp h s a.1 a.2) := by
  refine Once.enter fun s => ?_
  unfold onNakedSubset
  rw [items_eq (by omega) (by omega) (fits_compl a.1), Res.ok_bind,
    flatMapM_ok _ (fun pos _ => cellConflicts_ok (hf _) a.2), Res.ok_bind]
  refine ⟨_, _, rfl, nodup_flatMap_of (nodup_mems _) (fun x _ => nodup_cellConflicts _ _) ?_, fun _ => rfl⟩
  intro x _ y _ b hx hy
  rw [mem_cellConflicts] at hx hy
  exact hca_inj (hx.1.symm.trans hy.1)

theorem onHidden_once {poss : Vector PosSet 9} (hf : ∀ d : Digit, Fits 9 poss[d]) (h : Fin 27) (a : DigitSet × PosSet) :
    Once (fun s => onHiddenSubset poss h s a.1 a.2) := by
  refine Once.enter fun s => ?_
  unfold onHiddenSubset
  rw [items_eq (by omega) (by omega) (fits_compl a.1), Res.ok_bind,
    flatMapM_ok (g := fun d => (mems 9 (inter poss[d] a.2)).map (fun pos => (⟨Pos.houseCellAt h pos, d⟩ : Candidate))) _
      (fun d _ => by rw [items_eq (by omega) (by omega) (hf d).inter_left, Res.ok_bind]), Res.ok_bind]
  refine ⟨_, _, rfl, nodup_flatMap_of (nodup_mems _) (fun x _ => (nodup_mems _).map ?_) ?_, fun _ => rfl⟩
  · intro p q e
    exact hca_inj (congrArg Candidate.cell e)
  · intro x _ y _ b hx hy
    obtain ⟨_, _, rfl⟩ := List.mem_map.mp hx
    obtain ⟨_, _, e⟩ := List.mem_map.mp hy
    exact (congrArg Candidate.digit e).symm

theorem lineCellAt_inj : ∀ (dir : Fin 2) (i j p q : Fin 9),
    Pos.lineCellAt (dirLine dir i) p = Pos.lineCellAt (dirLine dir j) q → i = j ∧ p = q := by decide +kernel

theorem onFish_once {cp : Vector DigitSet 81} (digit : Digit) (dir : Fin 2) {a : LineSet × PosSet} (hf2 : Fits 9 a.2) :
    Once (fun s => onFish cp (dirLines dir) digit s a.1 a.2) := by
  refine Once.enter fun s => ?_
  unfold onFish
  rw [items_eq (by omega) (by omega) (dirLines_fits dir).without, Res.ok_bind,
    flatMapM_ok (g := fun line => (mems 9 a.2).map (fun pos => Pos.lineCellAt line pos)) _
      (fun d _ => by rw [items_eq (by omega) (by omega) hf2, Res.ok_bind]), Res.ok_bind]
  have hdir : ∀ x ∈ mems 18 (without (dirLines dir) a.1), ∃ i, x = dirLine dir i := by
    intro x hx
    rw [mem_mems, bit_without, Bool.and_eq_true, dirLines_bit] at hx
    exact hx.1
  refine ⟨_, _, rfl, nodup_cells (nodup_flatMap_of (nodup_mems _) ?_ ?_) cp digit, fun _ => rfl⟩
  · intro x hx
    obtain ⟨i, rfl⟩ := hdir x hx
    exact (nodup_mems _).map fun p q e => (lineCellAt_inj dir i i p q e).2
  · intro x hx y hy b hb hb'
    obtain ⟨i, rfl⟩ := hdir x hx
    obtain ⟨j, rfl⟩ := hdir y hy
    obtain ⟨p, _, rfl⟩ := List.mem_map.mp hb
    obtain ⟨q, _, e⟩ := List.mem_map.mp hb'
    rw [(lineCellAt_inj dir j i q p e).1]

/-- The two neighbours of a miniline are disjoint. -/
theorem neighbors_disjoint : ∀ m : Fin 54, (match Pos.minilineNeighbors m with
    | none => true
    | some (a, b) => [a, b].all fun x => if h : x.1 < 54 ∧ x.2 < 54 then decide (x.1 ≠ x.2 ∧ ∀ c : Fin 81,
        ¬ ((Pos.miniLineCells ⟨x.1, h.1⟩).getLsbD c.val = true ∧ (Pos.miniLineCells ⟨x.2, h.2⟩).getLsbD c.val = true))
      else true) = true := by
  decide +kernel

theorem onLocked_once {cp : Vector DigitSet 81} (hf : ∀ c : Fin 81, Fits 9 cp[c]) {m : Fin 54} {d : Digit}
    {n1 n2 : Fin 54} (hne : n1 ≠ n2) (hc : ∀ c : Fin 81, ¬ ((Pos.miniLineCells n1).getLsbD c.val = true ∧
      (Pos.miniLineCells n2).getLsbD c.val = true)) (isP : Bool) :
    Once (fun s => onLocked cp s m d (n1.val, n2.val) isP) := by
  refine Once.enter fun s => ?_
  unfold onLocked
  dsimp only
  rw [toFin_val, Res.ok_bind, toFin_val, Res.ok_bind,
    flatMapM_ok (g := fun n => mems 81 (Pos.miniLineCells n)) _ (fun x _ => items_eq (by omega) (by omega) (fits_mini x)),
    Res.ok_bind, flatMapM_ok (g := fun c => (mems 9 (inter cp[c] (asSet 16 d.val))).map (fun d => (⟨c, d⟩ : Candidate))) _
      (fun c _ => cellConflicts_ok (hf c) _), Res.ok_bind]
  refine ⟨_, _, rfl, nodup_flatMap_of (nodup_flatMap_of ?_ (fun x _ => nodup_mems _) ?_)
    (fun x _ => nodup_cellConflicts _ _) ?_, fun _ => rfl⟩
  · simpa using hne
  · intro x hx y hy b hb hb'
    rw [mem_mems] at hb hb'
    simp only [List.mem_cons, List.not_mem_nil, or_false] at hx hy
    rcases hx with rfl | rfl <;> rcases hy with rfl | rfl
    · rfl
    · exact absurd ⟨hb, hb'⟩ (hc b)
    · exact absurd ⟨hb', hb⟩ (hc b)
    · rfl
  · intro x _ y _ b hx hy
    rw [mem_cellConflicts] at hx hy
    exact hx.1.symm.trans hy.1

/-! ## The searches, with `stop_after_first` -/

theorem nakedSubsets_once {cp : Vector DigitSet 81} {hs : Vector DigitSet 27} (hf : ∀ c : Fin 81, Fits 9 cp[c])
    (size : UInt8) : Once (forUntil (fun s' house =>
      if isFull 9 hs[house] then .ok (s', false)
      else do
        let positions ← items 9 (ALL 16 9)
        walk (nakedVisit cp size true house) (nakedStep cp house) positions (NONE 16, NONE 16) s')
      (List.finRange 27)) := by
  refine forUntil_once _ fun h _ => ?_
  by_cases hfu : isFull 9 hs[h] = true
  · simp only [hfu, if_true]
    exact Once.skip _
  · simp only [if_neg hfu]
    refine Once.congr (walk_once (visit := nakedVisit cp size true h) (step := nakedStep cp h) (fun _ => True)
      (mems 9 (ALL 16 9)) ?_ (fun _ _ _ _ _ _ => trivial) (NONE 16, NONE 16) trivial) (fun s => by
        rw [items_eq (by omega) (by omega) (fits_all (by omega) (by omega)), Res.ok_bind])
    intro a _
    unfold nakedVisit
    by_cases h1 : len a.1 > size
    · simp only [if_pos h1]
      exact OnceVisit.skip _
    · simp only [if_neg h1]
      by_cases h2 : len a.1 = size ∧ len a.2 = len a.1
      · simp only [if_pos h2]
        exact OnceVisit.enter (onNaked_once hf h a) (fun s => ⟨_, rfl⟩) (fun s => rfl)
      · simp only [if_neg h2]
        exact OnceVisit.skip _

theorem hiddenSubsets_once {hs : Vector DigitSet 27} {hp : HousePoss}
    (hf : ∀ (h : Fin 27) (d : Digit), Fits 9 hp[h][d]) (size : UInt8) :
    Once (forUntil (fun s' house =>
      if isFull 9 hs[house] then .ok (s', false)
      else do
        let digits ← items 9 (ALL 16 9)
        walk (hiddenVisit hp[house] size true house) (hiddenStep hp[house]) digits (NONE 16, NONE 16) s')
      (List.finRange 27)) := by
  refine forUntil_once _ fun h _ => ?_
  by_cases hfu : isFull 9 hs[h] = true
  · simp only [hfu, if_true]
    exact Once.skip _
  · simp only [if_neg hfu]
    refine Once.congr (walk_once (visit := hiddenVisit hp[h] size true h) (step := hiddenStep hp[h]) (fun _ => True)
      (mems 9 (ALL 16 9)) ?_ (fun _ _ _ _ _ _ => trivial) (NONE 16, NONE 16) trivial) (fun s => by
        rw [items_eq (by omega) (by omega) (fits_all (by omega) (by omega)), Res.ok_bind])
    intro a _
    unfold hiddenVisit
    by_cases h1 : len a.1 > size
    · simp only [if_pos h1]
      exact OnceVisit.skip _
    · simp only [if_neg h1]
      by_cases h2 : len a.1 = size ∧ len a.2 = size
      · simp only [if_pos h2]
        exact OnceVisit.enter (onHidden_once (hf h) h a) (fun s => ⟨_, rfl⟩) (fun s => rfl)
      · simp only [if_neg h2]
        exact OnceVisit.skip _

theorem fish_once {cp : Vector DigitSet 81} {hp : HousePoss} (hf : ∀ (h : Fin 27) (d : Digit), Fits 9 hp[h][d])
    (size : UInt8) : Once (forUntil (fun s' (digit : Digit) =>
      forUntil (fun s' (lines : LineSet) => do
        let l ← items 18 lines
        walk (fishVisit cp lines digit size true) (fishStep hp digit size) l (NONE 32, NONE 16) s')
      [allRows, allCols] s') (List.finRange 9)) := by
  refine forUntil_once _ fun digit _ => forUntil_once _ fun L hL => ?_
  have hdir : ∃ dir, L = dirLines dir := by
    rcases List.mem_cons.mp hL with rfl | hL
    · exact ⟨0, rfl⟩
    · rw [List.mem_singleton] at hL
      exact ⟨1, hL⟩
  obtain ⟨dir, rfl⟩ := hdir
  refine Once.congr (walk_once (visit := fishVisit cp (dirLines dir) digit size true) (step := fishStep hp digit size)
    (fun a => Fits 9 a.2) (mems 18 (dirLines dir)) ?_ ?_ (NONE 32, NONE 16) fits_none) (fun s => by
      rw [items_eq (by omega) (by omega) (dirLines_fits dir), Res.ok_bind])
  · intro a ha
    unfold fishVisit
    by_cases h1 : len a.1 = size
    · simp only [if_pos h1]
      by_cases h2 : len a.2 ≠ size
      · simp only [if_pos h2]
        exact OnceVisit.skip _
      · simp only [if_neg h2]
        exact OnceVisit.enter (onFish_once digit dir ha) (fun s => ⟨_, rfl⟩) (fun s => rfl)
    · simp only [if_neg h1]
      exact OnceVisit.skip _
  · intro a x _ ha a' he
    unfold fishStep at he
    dsimp only at he
    rw [asLineSet_ok (hf _ _), Res.ok_bind] at he
    split at he
    · cases he
    · cases he
      exact ha.union (hf _ _)

theorem locked_once {cp : Vector DigitSet 81} (hf : ∀ c : Fin 81, Fits 9 cp[c]) :
    Once (forUntil (lockedChute cp true) (List.finRange 6)) := by
  refine forUntil_once _ fun chute _ => ?_
  unfold lockedChute
  have hl : (Pos.minilines chute).mapM (minilineDigits cp) =
      .ok ((List.finRange 9).map (fun i => miniPoss cp (ml chute i))) := by
    rw [Res.mapM_ok _ (miniPoss cp)]
    · unfold Pos.minilines
      rw [List.map_map]
      rfl
    · intro m _
      unfold minilineDigits
      rw [items_eq (by omega) (by omega) (fits_mini m), Res.ok_bind]
      rfl
  rw [hl]
  simp only [Res.ok_bind]
  rw [funext (fun s => dif_pos (by simp))]
  refine forUntil_once _ fun i _ => ?_
  unfold lockedMiniline
  dsimp only
  change Once (fun s => match Pos.minilineNeighbors (ml chute i) with
    | none => _
    | some (_, _) => _)
  obtain ⟨ln, fn, he, ⟨x, y, rfl, _⟩, ⟨z, w, rfl, _⟩⟩ := minilineNeighbors_spec (ml chute i)
  have hd := neighbors_disjoint (ml chute i)
  rw [he] at hd ⊢
  dsimp only at hd ⊢
  simp only [List.all_cons, List.all_nil, Bool.and_true, Bool.and_eq_true, Fin.eta] at hd
  rw [dif_pos ⟨x.isLt, y.isLt⟩, dif_pos ⟨z.isLt, w.isLt⟩, decide_eq_true_eq, decide_eq_true_eq] at hd
  obtain ⟨⟨d1, d2⟩, d3, d4⟩ := hd
  refine forUntil_once _ ?_
  rintro ⟨digits, n, isP⟩ hx
  have hx := List.mem_of_mem_filter hx
  have hfit : Fits 9 digits := by
    simp only [List.mem_cons, Prod.mk.injEq, List.not_mem_nil, or_false] at hx
    rcases hx with ⟨rfl, _⟩ | ⟨rfl, _⟩
    · have : Fits 9 (miniPoss cp (ml chute i)) := fits_miniPoss hf _
      simpa using this.inter_left
    · have : Fits 9 (miniPoss cp (ml chute i)) := fits_miniPoss hf _
      simpa using this.inter_left
  dsimp only
  rw [items_eq (by omega) (by omega) hfit]
  simp only [Res.ok_bind]
  refine forUntil_once _ fun d _ => ?_
  refine Once.stopped ?_ (fun b => true && b) rfl
  simp only [List.mem_cons, Prod.mk.injEq, List.not_mem_nil, or_false] at hx
  rcases hx with ⟨rfl, rfl, rfl⟩ | ⟨rfl, rfl, rfl⟩
  · exact onLocked_once hf (fun e => d3 (congrArg Fin.val e)) d4 false
  · exact onLocked_once hf (fun e => d1 (congrArg Fin.val e)) d2 true

theorem wingPairs_once {cp : Vector DigitSet 81} {common : UInt8}
    {onWing : Solver → Fin 81 → Fin 81 → Res (Solver × Bool)} {hinge : Fin 81}
    {a : Pos.Cells × Pos.Cells} (ha : WingArea hinge a)
    (hon : ∀ p1 p2, Once (fun s => onWing s p1 p2)) :
    Once (fun s => wingPairs cp true common onWing hinge s a) := by
  unfold wingPairs bivalueCells
  rw [items_eq (by omega) (by omega) ha.1, items_eq (by omega) (by omega) ha.2.1]
  simp only [Res.ok_bind]
  refine forUntil_once _ fun p1 _ => forUntil_once _ fun p2 _ => ?_
  by_cases hne : len (inter cp[p1] cp[p2]) ≠ 1 ∨ len (union (union cp[p1] cp[p2]) cp[hinge]) ≠ 3
  · simp only [if_pos hne]
    exact Once.skip _
  · simp only [if_neg hne]
    exact Once.stopped (hon p1 p2) (fun b => b && true) rfl

theorem onXy_once {cp : Vector DigitSet 81} (hinge p1 p2 : Fin 81) : Once (fun s => onXyWing cp hinge s p1 p2) := by
  intro s r he
  unfold onXyWing at he
  obtain ⟨z, _, he⟩ := bind_ok he
  rw [items_eq (by omega) (by omega) (fits_neighbors p1).inter_left, Res.ok_bind] at he
  exact enterConflicts_once (nodup_cells (nodup_mems _) cp z) _ (fun _ => rfl) s r he

theorem onXyz_once {cp : Vector DigitSet 81} (hinge p1 p2 : Fin 81) : Once (fun s => onXyzWing cp hinge s p1 p2) := by
  intro s r he
  unfold onXyzWing at he
  obtain ⟨z, _, he⟩ := bind_ok he
  dsimp only at he
  obtain ⟨_, _, he⟩ := bind_ok he
  rw [items_eq (by omega) (by omega) (fits_neighbors hinge).inter_left.inter_left, Res.ok_bind] at he
  exact enterConflicts_once (nodup_cells (nodup_mems _) cp z) _ (fun _ => rfl) s r he

theorem xyWing_once (cp : Vector DigitSet 81) : Once (forUntil (fun s' hinge =>
      if len cp[hinge] ≠ 2 then .ok (s', false)
      else
        let areas := wingAreas hinge
        forUntil (wingPairs cp true 1 (onXyWing cp hinge) hinge) [areas.1, areas.2.1, areas.2.2] s')
      (List.finRange 81)) := by
  refine forUntil_once _ fun hinge _ => ?_
  by_cases hlen : len cp[hinge] ≠ 2
  · simp only [if_pos hlen]
    exact Once.skip _
  · simp only [if_neg hlen]
    exact forUntil_once _ fun a ha => wingPairs_once (wingArea_spec hinge a ha) (onXy_once hinge)

theorem xyzWing_once (cp : Vector DigitSet 81) : Once (forUntil (fun s' hinge =>
      if len cp[hinge] ≠ 3 then .ok (s', false)
      else
        let areas := wingAreas hinge
        forUntil (wingPairs cp true 2 (onXyzWing cp hinge) hinge) [areas.1, areas.2.1] s')
      (List.finRange 81)) := by
  refine forUntil_once _ fun hinge _ => ?_
  by_cases hlen : len cp[hinge] ≠ 3
  · simp only [if_pos hlen]
    exact Once.skip _
  · simp only [if_neg hlen]
    exact forUntil_once _ fun a ha => wingPairs_once
      (wingArea_spec hinge a (by simp only [List.mem_cons, List.not_mem_nil, or_false] at ha ⊢; tauto)) (onXyz_once hinge)

end Verif.Strat
