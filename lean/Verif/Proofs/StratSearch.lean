import Verif.Proofs.StratHouse
import Verif.Proofs.ResMonad

/-! # The strategy solver: searches that only add eliminated candidates -/
namespace Verif.Strat

open Bitset Generator

/-- The solver with more eliminated candidates and deductions. -/
def Solver.addElim (s : Solver) (news : List Candidate) (ds : List RangeDeduction) : Solver :=
  { s with eliminated := s.eliminated ++ news, deductions := s.deductions ++ ds }

/-- The range of eliminated candidates of a deduction. -/
def Deduction.conf {T : Type} : Deduction T → Option T
  | .nakedSingles _ => none
  | .hiddenSingles _ _ => none
  | .lockedCandidates _ _ _ c => some c
  | .subsets _ _ _ c => some c
  | .basicFish _ _ _ c => some c
  | .fish _ _ _ c => some c
  | .wing _ _ _ c => some c
  | .avoidableRectangle _ c => some c

/-- Whatever is eliminated later, the deduction `d` can be read and then satisfies `Q`. -/
def Expl (Q : Deduction (List Candidate) → Prop) (elim : List Candidate) (d : RangeDeduction) : Prop :=
  ∀ more, ∃ d', withSlices d (elim ++ more) = .ok d' ∧ Q d'

theorem Expl.append {Q : Deduction (List Candidate) → Prop} {elim : List Candidate} {d : RangeDeduction}
    (h : Expl Q elim d) (more : List Candidate) : Expl Q (elim ++ more) d := by
  intro more'
  rw [List.append_assoc]
  exact h _

theorem Expl.mono {Q Q' : Deduction (List Candidate) → Prop} {elim : List Candidate} {d : RangeDeduction}
    (h : Expl Q elim d) (hq : ∀ d, Q d → Q' d) : Expl Q' elim d := by
  intro more
  obtain ⟨d', h1, h2⟩ := h more
  exact ⟨d', h1, hq _ h2⟩

/-- A search added eliminated candidates satisfying `P`, with deductions satisfying `Q`. -/
structure ExtBy (P : Candidate → Prop) (Q : Deduction (List Candidate) → Prop) (s : Solver) (news : List Candidate)
    (ds : List RangeDeduction) : Prop where
  new : ∀ e ∈ news, P e
  expl : ∀ d ∈ ds, Expl Q (s.eliminated ++ news) d
  conf : ∀ d ∈ ds, ∃ rg, d.conf = some rg ∧ s.eliminated.length ≤ rg.1
  cover : ∀ i, s.eliminated.length ≤ i → i < (s.eliminated ++ news).length →
    ∃ d ∈ ds, ∃ rg, d.conf = some rg ∧ rg.1 ≤ i ∧ i < rg.2

def Ext (P : Candidate → Prop) (Q : Deduction (List Candidate) → Prop) (s s' : Solver) : Prop :=
  ∃ news ds, s' = s.addElim news ds ∧ ExtBy P Q s news ds

theorem Ext.refl {P : Candidate → Prop} {Q : Deduction (List Candidate) → Prop} (s : Solver) : Ext P Q s s := by
  refine ⟨[], [], ?_, by simp, by simp, by simp, ?_⟩
  · unfold Solver.addElim; simp
  · intro i h1 h2
    simp at h2
    omega

theorem Ext.trans {P : Candidate → Prop} {Q : Deduction (List Candidate) → Prop} {a b c : Solver} (h : Ext P Q a b)
    (h' : Ext P Q b c) : Ext P Q a c := by
  obtain ⟨n1, d1, rfl, h1⟩ := h
  obtain ⟨n2, d2, rfl, h2⟩ := h'
  refine ⟨n1 ++ n2, d1 ++ d2, by simp [Solver.addElim], ?_, ?_, ?_, ?_⟩
  · intro e he
    rcases List.mem_append.mp he with he | he
    · exact h1.new e he
    · exact h2.new e he
  · intro d hd
    rcases List.mem_append.mp hd with hd | hd
    · rw [← List.append_assoc]
      exact (h1.expl d hd).append n2
    · have := h2.expl d hd
      simp only [Solver.addElim] at this
      rwa [← List.append_assoc]
  · intro d hd
    rcases List.mem_append.mp hd with hd | hd
    · exact h1.conf d hd
    · obtain ⟨rg, e, hle⟩ := h2.conf d hd
      simp only [Solver.addElim, List.length_append] at hle
      exact ⟨rg, e, by omega⟩
  · intro i hi1 hi2
    by_cases hi : i < (a.eliminated ++ n1).length
    · obtain ⟨d, hd, hx⟩ := h1.cover i hi1 hi
      exact ⟨d, List.mem_append_left _ hd, hx⟩
    · obtain ⟨d, hd, hx⟩ := h2.cover i (by simp only [Solver.addElim]; omega)
        (by simp only [Solver.addElim]; rwa [List.append_assoc])
      exact ⟨d, List.mem_append_right _ hd, hx⟩

/-- `enter_conflicts` -/
theorem enterConflicts_ext {P : Candidate → Prop} {Q : Deduction (List Candidate) → Prop} (s : Solver)
    {conflicts : List Candidate} {mk : Nat × Nat → RangeDeduction} (mk' : List Candidate → Deduction (List Candidate))
    (hmk : ∀ rg elim l, slice elim rg = .ok l → withSlices (mk rg) elim = .ok (mk' l))
    (hconf : ∀ rg, (mk rg).conf = some rg)
    (hP : ∀ e ∈ conflicts, P e) (hQ : conflicts ≠ [] → Q (mk' conflicts)) :
    Ext P Q s (s.enterConflicts conflicts mk).1 ∧
      ((s.enterConflicts conflicts mk).2 = true ↔ conflicts ≠ []) := by
  unfold Solver.enterConflicts
  dsimp only
  by_cases hn : conflicts = []
  · subst hn
    rw [if_neg (by simp)]
    refine ⟨?_, by simp⟩
    convert Ext.refl s using 1
    simp
  · have hpos : 0 < conflicts.length := List.length_pos_iff.mpr hn
    rw [if_pos (by rw [List.length_append]; omega)]
    refine ⟨⟨conflicts, [mk (s.eliminated.length, (s.eliminated ++ conflicts).length)], rfl, hP, ?_, ?_, ?_⟩, by simp [hn]⟩
    · intro d hd more
      rw [List.mem_singleton] at hd
      subst hd
      refine ⟨mk' conflicts, hmk _ _ _ ?_, hQ hn⟩
      unfold slice
      rw [if_pos ⟨by simp, by simp⟩]
      simp [List.take_append, List.drop_append]
    · intro d hd
      rw [List.mem_singleton] at hd
      subst hd
      exact ⟨_, hconf _, Nat.le_refl _⟩
    · intro i h1 h2
      exact ⟨_, List.mem_singleton_self _, _, hconf _, h1, h2⟩

/-- Loops keep an invariant of the solver. -/
theorem forUntil_post {α : Type} {f : Solver → α → Res (Solver × Bool)} (J : Solver → Prop) :
    ∀ (l : List α) (s : Solver), J s → (∀ s, ∀ x ∈ l, J s → Res.Post (f s x) (fun r => J r.1) False) →
      Res.Post (forUntil f l s) (fun r => J r.1) False := by
  intro l
  induction l with
  | nil => intro s h _; exact h
  | cons x xs ih =>
    intro s h hstep
    unfold forUntil
    refine Res.Post.bind (hstep s x (by simp) h) ?_
    rintro ⟨s1, stop⟩ h1
    show Res.Post (if stop = true then _ else _) _ _
    split
    · exact h1
    · exact ih s1 h1 (fun s y hy => hstep s y (by simp [hy]))

/-- Searches keep an invariant of the solver, given one of the combination. -/
theorem walkLoop_post {α A : Type} {visit : A → Solver → Res (Solver × Option Bool)} {step : A → α → Res (Option A)}
    (J : Solver → Prop) (I : A → Prop) :
    ∀ (l : List α), (∀ a s, I a → J s → Res.Post (visit a s) (fun r => J r.1) False) →
      (∀ a, ∀ x ∈ l, I a → Res.Post (step a x) (fun r => ∀ a', r = some a' → I a') False) →
      ∀ (a : A) (s : Solver), I a → J s → Res.Post (walkLoop visit step l a s) (fun r => J r.1) False := by
  intro l hv
  induction l with
  | nil => intro _ a s _ h; exact h
  | cons x xs ih =>
    intro hs a s ha h
    have ih := ih (fun a y hy => hs a y (by simp [hy]))
    unfold walkLoop
    refine Res.Post.bind (hs a x (by simp) ha) ?_
    rintro (_ | a') h1
    · exact ih a s ha h
    · have ha' := h1 a' rfl
      refine Res.Post.bind (P := fun r => J r.1) ?_ ?_
      · refine Res.Post.bind (hv a' s ha' h) ?_
        rintro ⟨s1, _ | b⟩ h2
        · exact ih a' s1 ha' h2
        · exact h2
      · rintro ⟨s1, found⟩ h2
        show Res.Post (if found = true then _ else _) _ _
        split
        · exact h2
        · exact ih a s1 ha h2

theorem walk_post {α A : Type} {visit : A → Solver → Res (Solver × Option Bool)} {step : A → α → Res (Option A)}
    (J : Solver → Prop) (I : A → Prop) (l : List α)
    (hv : ∀ a s, I a → J s → Res.Post (visit a s) (fun r => J r.1) False)
    (hs : ∀ a, ∀ x ∈ l, I a → Res.Post (step a x) (fun r => ∀ a', r = some a' → I a') False)
    (a : A) (s : Solver) (ha : I a) (h : J s) : Res.Post (walk visit step l a s) (fun r => J r.1) False := by
  unfold walk
  refine Res.Post.bind (hv a s ha h) ?_
  rintro ⟨s1, _ | b⟩ h2
  · exact walkLoop_post J I l hv hs a s1 ha h2
  · exact h2

theorem flatMapM_ok {α β : Type} {f : α → Res (List β)} {g : α → List β} (l : List α) (h : ∀ x ∈ l, f x = .ok (g x)) :
    flatMapM f l = .ok (l.flatMap g) := by
  unfold flatMapM
  have : l.mapM f = .ok (l.map g) := by
    induction l with
    | nil => rfl
    | cons x xs ih =>
      rw [List.mapM_cons, h x (by simp), Res.ok_bind, ih (fun y hy => h y (by simp [hy])), Res.ok_bind]
      rfl
  rw [this, Res.ok_bind, List.flatMap_def]

/-- The candidates of a cell among `digits`. -/
theorem cellConflicts_ok {cp : Vector DigitSet 81} {c : Fin 81} (hf : Fits 9 cp[c]) (digits : DigitSet) :
    cellConflicts cp digits c = .ok ((mems 9 (inter cp[c] digits)).map (fun d => ⟨c, d⟩)) := by
  unfold cellConflicts
  rw [items_eq (by omega) (by omega) hf.inter_left, Res.ok_bind]

theorem mem_cellConflicts {cp : Vector DigitSet 81} {c : Fin 81} {digits : DigitSet} {e : Candidate} :
    e ∈ (mems 9 (inter cp[c] digits)).map (fun d => (⟨c, d⟩ : Candidate)) ↔
      e.cell = c ∧ cp[c].getLsbD e.digit.val = true ∧ digits.getLsbD e.digit.val = true := by
  rw [List.mem_map]
  constructor
  · rintro ⟨d, hd, rfl⟩
    rw [mem_mems, bit_inter, Bool.and_eq_true] at hd
    exact ⟨rfl, hd⟩
  · rintro ⟨rfl, hd⟩
    refine ⟨e.digit, ?_, rfl⟩
    rw [mem_mems, bit_inter, Bool.and_eq_true]
    exact hd

/-- What the possible digits say about a solution `t`. -/
structure CpOK (cp : Vector DigitSet 81) (t : Grid) : Prop where
  solved : Solved t
  poss : ∀ (c : Fin 81) (d : Digit), t[c] = d.get → cp[c] = 0#16 ∨ cp[c].getLsbD d.val = true
  fresh : ∀ (c c' : Fin 81) (d : Digit), c ≠ c' → SameHouse c c' → cp[c] = 0#16 → t[c] = d.get →
    cp[c'].getLsbD d.val = false

/-- What the possible positions say about a solution `t`. -/
def HpOK (hp : HousePoss) (t : Grid) : Prop := ∀ (h : Fin 27) (d : Digit) (p : Fin 9),
  t[Pos.houseCellAt h p] = d.get → hp[h][d] = 0#16 ∨ hp[h][d].getLsbD p.val = true

/-- No solution has `e`. -/
def Refuted (cp : Vector DigitSet 81) (hp : HousePoss) (e : Candidate) : Prop :=
  ∀ t, CpOK cp t → HpOK hp t → t[e.cell] ≠ e.digit.get

end Verif.Strat
