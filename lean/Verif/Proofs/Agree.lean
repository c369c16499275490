import Verif.Proofs.Search
import Verif.Proofs.FromSudoku

/-! The search does not depend on the fuel, nor on the kind of container that collects the
solutions: two runs that return agree. -/
namespace Verif.FastSolver

/-- Two outcomes agree unless one of them is a panic or a timeout. -/
def Agree {α β : Type} (R : α → β → Prop) : Res α → Res β → Prop
  | .ok a, .ok b => R a b
  | .ok _, .err => False
  | .err, .ok _ => False
  | _, _ => True

theorem Agree.refl {α : Type} (x : Res α) : Agree Eq x x := by cases x <;> simp [Agree]

theorem Agree.panic_right {α β : Type} {R : α → β → Prop} (x : Res α) : Agree R x (.panic : Res β) := by
  cases x <;> trivial

theorem Agree.timeout_right {α β : Type} {R : α → β → Prop} (x : Res α) : Agree R x (.timeout : Res β) := by
  cases x <;> trivial

theorem Agree.bind {α β γ δ : Type} {R : α → β → Prop} {Q : γ → δ → Prop} {x : Res α} {y : Res β}
    {f : α → Res γ} {g : β → Res δ} (h : Agree R x y) (hf : ∀ a b, R a b → Agree Q (f a) (g b)) :
    Agree Q (x >>= f) (y >>= g) := by
  cases x <;> cases y
  · exact hf _ _ h
  all_goals first
    | exact h.elim
    | exact Agree.panic_right _
    | exact Agree.timeout_right _
    | trivial

theorem Agree.bindEq {α γ δ : Type} {Q : γ → δ → Prop} (x : Res α)
    {f : α → Res γ} {g : α → Res δ} (hf : ∀ a, Agree Q (f a) (g a)) :
    Agree Q (x >>= f) (x >>= g) :=
  Agree.bind (Agree.refl x) fun a b e => by subst e; exact hf a

theorem findLocked_agree (f1 : Nat) : ∀ (f2 : Nat) (s : Solver),
    Agree Eq (Solver.findLocked f1 s) (Solver.findLocked f2 s) := by
  induction f1 with
  | zero => intro f2 s; unfold Solver.findLocked; trivial
  | succ f1 ih =>
    intro f2 s
    cases f2 with
    | zero => exact Agree.timeout_right _
    | succ f2 =>
      unfold Solver.findLocked
      refine Agree.bindEq _ ?_
      rintro ⟨s', b⟩
      cases b
      · exact ih f2 s'
      · exact Agree.refl _

theorem solveLoop_agree (e1 e2 f1 : Nat) : ∀ (f2 : Nat) (s : Solver),
    Agree Eq (Solver.solveLoop e1 f1 s) (Solver.solveLoop e2 f2 s) := by
  induction f1 with
  | zero => intro f2 s; unfold Solver.solveLoop; trivial
  | succ f1 ih =>
    intro f2 s
    cases f2 with
    | zero => exact Agree.timeout_right _
    | succ f2 =>
      unfold Solver.solveLoop
      refine Agree.bind (findLocked_agree e1 e2 s) ?_
      rintro s' _ rfl
      split
      · exact Agree.refl _
      · refine Agree.bindEq _ ?_
        rintro ⟨s'', b⟩
        cases b
        · exact Agree.refl _
        · exact ih f2 s''

/-- Containers that were extended by the same solutions. -/
def Same (a0 b0 a b : Solutions) : Prop :=
  ∃ L : List Grid, a = L.foldl Solutions.add a0 ∧ b = L.foldl Solutions.add b0

theorem Same.len {a0 b0 a b : Solutions} (h0 : a0.len = b0.len) (h : Same a0 b0 a b) : a.len = b.len := by
  obtain ⟨L, rfl, rfl⟩ := h
  rw [Solutions.len_foldl, Solutions.len_foldl, h0]

theorem Same.add {a0 b0 a b : Solutions} (h : Same a0 b0 a b) (t : Grid) : Same a0 b0 (a.add t) (b.add t) := by
  obtain ⟨L, rfl, rfl⟩ := h
  exact ⟨L ++ [t], by rw [List.foldl_append]; rfl, by rw [List.foldl_append]; rfl⟩

section
variable {a0 b0 : Solutions} (h0 : a0.len = b0.len)

/-- Without caring for panics, `record` is `add`ing the extracted solution. -/
theorem record_agree {t : Grid} {s : Solver} (h : s.extractSolution = .ok t) (a : Solutions) :
    s.record a = .ok (a.add t) := by
  cases a with
  | count n => rfl
  | vector v => simp [Solver.record, h, Solutions.add]
  | buffer buf len =>
    simp only [Solver.record, h, Solutions.add, Res.ok_bind]
    split <;> rfl

theorem foldlM_ne_err {α β : Type} (f : α → β → Res α) (hf : ∀ a b, f a b ≠ .err) (l : List β) (a : α) :
    l.foldlM f a ≠ .err := by
  induction l generalizing a with
  | nil => rw [List.foldlM_nil]; intro h; cases h
  | cons b l ih =>
    rw [List.foldlM_cons]
    have := hf a b
    cases hfa : f a b with
    | ok a' => exact ih a'
    | err => exact absurd hfa this
    | panic => intro h; cases h
    | timeout => intro h; cases h

theorem extract_ne_err (s : Solver) : s.extractSolution ≠ .err := by
  unfold Solver.extractSolution
  refine foldlM_ne_err _ (fun g i => foldlM_ne_err _ (fun g m => ?_) _ _) _ _
  unfold setCell
  split <;> (intro h; cases h)

theorem record_agree' {s : Solver} (h : ∀ t, s.extractSolution ≠ .ok t) (a : Solutions) :
    (∀ t, s.record a = .ok (a.add t)) ∨ s.record a = .panic ∨ s.record a = .timeout := by
  have hx : s.extractSolution = .panic ∨ s.extractSolution = .timeout := by
    cases he : s.extractSolution with
    | ok t => exact absurd he (h t)
    | err => exact absurd he (extract_ne_err s)
    | panic => exact Or.inl rfl
    | timeout => exact Or.inr rfl
  cases a with
  | count n => exact Or.inl fun t => rfl
  | vector v =>
    right
    rcases hx with hx | hx
    · left; simp [Solver.record, hx]
    · right; simp [Solver.record, hx]
  | buffer buf len =>
    by_cases hl : len < buf.length
    · right
      rcases hx with hx | hx
      · left; simp [Solver.record, hx, hl]
      · right; simp [Solver.record, hx, hl]
    · left; intro t; simp [Solver.record, Solutions.add, hl]

/-- What is needed of the recursive calls. -/
def RecAgree (a0 b0 : Solutions) (r1 r2 : Solver → Solutions → Res Solutions) : Prop :=
  ∀ s a b, Same a0 b0 a b → Agree (Same a0 b0) (r1 s a) (r2 s b)

include h0 in
theorem solveThen_agree {f1 f2 : Nat} {r1 r2} (hr : RecAgree a0 b0 r1 r2) (s : Solver) (limit : Nat)
    {a b : Solutions} (h : Same a0 b0 a b) :
    Agree (Same a0 b0) (s.solveThen f1 r1 limit a) (s.solveThen f2 r2 limit b) := by
  unfold Solver.solveThen Solver.solve
  rw [h.len h0]
  have key : Agree Eq (Res.assert (decide (b.len ≤ limit)) >>= fun _ =>
      if b.len = limit then .err else s.solveLoop f1 f1)
      (Res.assert (decide (b.len ≤ limit)) >>= fun _ =>
      if b.len = limit then .err else s.solveLoop f2 f2) := by
    refine Agree.bindEq _ fun _ => ?_
    split
    · exact Agree.refl _
    · exact solveLoop_agree _ _ _ _ _
  generalize (Res.assert (decide (b.len ≤ limit)) >>= fun _ =>
      if b.len = limit then .err else s.solveLoop f1 f1) = x at key
  generalize (Res.assert (decide (b.len ≤ limit)) >>= fun _ =>
      if b.len = limit then .err else s.solveLoop f2 f2) = y at key
  cases x <;> cases y
  · cases key; exact hr _ _ _ h
  all_goals first
    | exact key.elim
    | exact Agree.panic_right _
    | exact Agree.timeout_right _
    | exact h
    | trivial

include h0 in
theorem bivalueLoop_agree {f1 f2 : Nat} {r1 r2} (hr : RecAgree a0 b0 r1 r2) (limit : Nat) (m : Mask) (n : Nat) :
    ∀ (s : Solver) (k : Nat) (first : Bool) (a b : Solutions), Same a0 b0 a b →
    Agree (Same a0 b0) (Solver.bivalueLoop f1 r1 limit m n s k first a)
      (Solver.bivalueLoop f2 r2 limit m n s k first b) := by
  induction n with
  | zero => intros; trivial
  | succ n ih =>
    intro s k first a b h
    unfold Solver.bivalueLoop
    split
    · simp only
      split
      · cases first
        · exact Agree.bindEq _ fun s' => solveThen_agree h0 hr s' limit h
        · refine Agree.bindEq _ fun s' => Agree.bind (solveThen_agree h0 hr s' limit h) fun a' b' h' => ?_
          exact ih _ _ _ _ _ h'
      · exact ih _ _ _ _ _ h
    · trivial

include h0 in
theorem guessBivalue_agree {f1 f2 : Nat} {r1 r2} (hr : RecAgree a0 b0 r1 r2) (s : Solver) (limit : Nat)
    {a b : Solutions} (h : Same a0 b0 a b) (bs : List (Fin 3)) :
    Agree (fun x y => (x = none ∧ y = none) ∨ ∃ x' y', x = some x' ∧ y = some y' ∧ Same a0 b0 x' y')
      (Solver.guessBivalue f1 r1 s limit a bs) (Solver.guessBivalue f2 r2 s limit b bs) := by
  induction bs with
  | nil => exact Or.inl ⟨rfl, rfl⟩
  | cons c bs ih =>
    unfold Solver.guessBivalue
    cases maskIter s.pairs[c] with
    | nil => exact ih
    | cons m ms =>
      exact Agree.bind (bivalueLoop_agree h0 hr limit m 10 s c.val true a b h)
        fun x y hxy => Or.inr ⟨x, y, rfl, rfl, hxy⟩

include h0 in
theorem someCellLoop_agree {f1 f2 : Nat} {r1 r2} (hr : RecAgree a0 b0 r1 r2) (limit : Nat) (c : Fin 3) (m : Mask)
    (ds : List (Fin 9)) : ∀ (s : Solver) (a b : Solutions), Same a0 b0 a b →
    Agree (Same a0 b0) (Solver.someCellLoop f1 r1 limit c m ds s a)
      (Solver.someCellLoop f2 r2 limit c m ds s b) := by
  induction ds with
  | nil => intro s a b h; exact h
  | cons d ds ih =>
    intro s a b h
    unfold Solver.someCellLoop
    simp only
    split
    · refine Agree.bindEq _ fun s' => Agree.bind (solveThen_agree h0 hr s' limit h) fun a' b' h' => ?_
      rw [h'.len h0]
      split
      · exact h'
      · exact ih _ _ _ h'
    · exact ih _ _ _ h

include h0 in
theorem guess_agree (f1 f2 limit : Nat) (d1 : Nat) : ∀ d2,
    RecAgree a0 b0 (fun s acc => Solver.guess f1 d1 s limit acc) (fun s acc => Solver.guess f2 d2 s limit acc) := by
  induction d1 with
  | zero => intro d2 s a b h; simp only; unfold Solver.guess; trivial
  | succ d1 ih =>
    intro d2 s a b h
    cases d2 with
    | zero => exact Agree.timeout_right _
    | succ d2 =>
      simp only
      unfold Solver.guess
      simp only
      split
      · rw [h.len h0]
        refine Agree.bindEq _ fun _ => ?_
        by_cases hex : ∃ t, s.extractSolution = .ok t
        · obtain ⟨t, he⟩ := hex
          rw [record_agree he, record_agree he]; exact h.add t
        · have hex' : ∀ t, s.extractSolution ≠ .ok t := fun t ht => hex ⟨t, ht⟩
          rcases record_agree' hex' a with h1 | h1 | h1
          · rcases record_agree' hex' b with h2 | h2 | h2
            · rw [h1 (Vector.replicate 81 0), h2 (Vector.replicate 81 0)]; exact h.add _
            · rw [h2]; exact Agree.panic_right _
            · rw [h2]; exact Agree.timeout_right _
          · rw [h1]; trivial
          · rw [h1]; trivial
      · refine Agree.bind (guessBivalue_agree h0 (ih d2) s limit h (List.finRange 3)) ?_
        rintro x y (⟨rfl, rfl⟩ | ⟨x', y', rfl, rfl, h'⟩)
        · simp only
          unfold Solver.guessSomeCell
          split
          · exact h
          · exact someCellLoop_agree h0 (ih d2) _ _ _ _ _ _ _ h
        · exact h'

include h0 in
theorem run_agree (f1 f2 : Nat) (s : Solver) (limit : Nat) :
    Agree (Same a0 b0) (s.run f1 limit a0) (s.run f2 limit b0) := by
  have h : Same a0 b0 a0 b0 := ⟨[], rfl, rfl⟩
  unfold Solver.run
  split
  · exact h
  · trivial
  · trivial
  · exact solveThen_agree h0 (guess_agree h0 f1 f2 limit f1 f2) _ _ h

end

theorem psi_start {s : Solver} (h : ∀ i : Fin 27, s.prev[i] = 0) : psi s = 756 := by
  unfold psi
  rw [Finset.sum_congr rfl (fun i _ => by rw [h i]; rfl : ∀ i ∈ Finset.univ, psi1 s.prev[i] = 28)]
  simp

attribute [local irreducible] psi

/-- The whole search from a sudoku: one list of solutions describes the outcome for every kind of
container and every sufficient fuel. -/
theorem runSudoku_spec {g : Grid} (hg : WellFormed g) (limit : Nat) :
    ∃ L : List Grid, L.Nodup ∧ (∀ t ∈ L, IsSolution g t) ∧ L.length ≤ limit ∧
      (L.length < limit → ∀ t, IsSolution g t → t ∈ L) ∧
      ∀ acc : Solutions, acc.len = 0 → ∀ fuel, 800 ≤ fuel →
        runSudoku fuel g limit acc = .ok (L.foldl Solutions.add acc) := by
  have hp := fromSudoku_post hg
  unfold runSudoku
  generalize fromSudoku g = r at hp
  match r, hp with
  | .err, hp =>
    exact ⟨[], List.nodup_nil, by simp, by simp, fun _ t ht => absurd ht (hp t), fun _ _ _ _ => rfl⟩
  | .ok s, hp =>
    obtain ⟨h1, h2, h3⟩ := hp
    have hpsi := psi_start h2
    obtain ⟨L, e, n, m, l, c⟩ := run_spec h1 (fuel := 800) (by omega) (acc := .vector []) (Nat.zero_le limit)
    have h00 : (Solutions.vector []).len = 0 := rfl
    rw [h00, Nat.zero_add] at l c
    refine ⟨L, n, fun t ht => (h3 t).1 (m t ht), l, fun hl t ht => c hl t ((h3 t).2 ht), fun acc h0 fuel hf => ?_⟩
    obtain ⟨L', e', -⟩ := run_spec h1 (fuel := fuel) (by omega) (acc := acc) (limit := limit) (by rw [h0]; exact Nat.zero_le limit)
    have hag := run_agree (a0 := .vector []) (b0 := acc) h0.symm 800 fuel s limit
    simp only
    rw [e, e'] at hag
    rw [e']
    obtain ⟨L'', k1, k2⟩ := hag
    have hvec : ∀ (L : List Grid) (v : List Grid), L.foldl Solutions.add (.vector v) = .vector (v ++ L) := by
      intro L
      induction L with
      | nil => intro v; simp
      | cons t L ih => intro v; rw [List.foldl_cons]; simp only [Solutions.add]; rw [ih]; simp
    rw [hvec, hvec] at k1
    simp only [List.nil_append, Solutions.vector.injEq] at k1
    rw [k2, k1]

end Verif.FastSolver
