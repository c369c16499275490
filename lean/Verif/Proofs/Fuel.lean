import Verif.Model.Strategy
import Verif.Model.Generator

/-!
# More fuel does not change a result
-/
namespace Verif

/-- `y` is `x`, or `x` ran out of fuel. -/
def Res.Le {α : Type} (x y : Res α) : Prop := x = .timeout ∨ x = y

theorem Res.Le.rfl {α : Type} {x : Res α} : Res.Le x x := Or.inr (Eq.refl x)

theorem Res.Le.bind {α β : Type} {x y : Res α} {f g : α → Res β} (h : Res.Le x y) (hf : ∀ a, Res.Le (f a) (g a)) :
    Res.Le (x >>= f) (y >>= g) := by
  rcases h with rfl | rfl
  · exact Or.inl (Eq.refl _)
  · cases x with
    | ok a => exact hf a
    | err => exact Or.inr (Eq.refl _)
    | panic => exact Or.inr (Eq.refl _)
    | timeout => exact Or.inr (Eq.refl _)

theorem Res.Le.ok {α : Type} {x y : Res α} (h : Res.Le x y) {a : α} (hx : x = .ok a) : y = .ok a := by
  rcases h with h | h
  · rw [hx] at h; cases h
  · rw [← h, hx]

theorem Res.Le.ite {α : Type} {c : Prop} [Decidable c] {x y x' y' : Res α} (h1 : Res.Le x x') (h2 : Res.Le y y') :
    Res.Le (if c then x else y) (if c then x' else y') := by
  split
  · exact h1
  · exact h2

namespace Strat

theorem andThen_le {x y : Res (Solver × Bool)} {f g : Solver → Res (Solver × Bool)} (h : Res.Le x y)
    (hf : ∀ s, Res.Le (f s) (g s)) : Res.Le (andThen x f) (andThen y g) := by
  unfold andThen
  exact h.bind (fun a => Res.Le.ite (hf _) Res.Le.rfl)

theorem insertSingly_le (findNaked : Bool) : ∀ (n m : Nat) (s : Solver), n ≤ m →
    Res.Le (Solver.insertSingly findNaked n s) (Solver.insertSingly findNaked m s) := by
  intro n
  induction n with
  | zero => intro m s _; exact Or.inl rfl
  | succ n ih =>
    intro m s h
    obtain ⟨m, rfl⟩ : ∃ k, m = k + 1 := ⟨m - 1, by omega⟩
    unfold Solver.insertSingly
    split
    · exact Res.Le.rfl
    · refine Res.Le.rfl.bind (fun s => ?_)
      refine Res.Le.ite (ih m s (by omega)) (Res.Le.ite Res.Le.rfl (Res.Le.rfl.bind (fun s => Res.Le.rfl.bind (fun r => ?_))))
      exact Res.Le.ite Res.Le.rfl (Res.Le.ite Res.Le.rfl (Res.Le.ite Res.Le.rfl (ih m _ (by omega))))

theorem batchInsert_le : ∀ (n m : Nat) (s : Solver), n ≤ m → Res.Le (Solver.batchInsert n s) (Solver.batchInsert m s) := by
  intro n
  induction n with
  | zero => intro m s _; exact Or.inl rfl
  | succ n ih =>
    intro m s h
    obtain ⟨m, rfl⟩ : ∃ k, m = k + 1 := ⟨m - 1, by omega⟩
    unfold Solver.batchInsert
    split
    · exact Res.Le.rfl
    · refine Res.Le.rfl.bind (fun s => ?_)
      exact Res.Le.ite (ih m s (by omega)) (Res.Le.ite Res.Le.rfl (Res.Le.rfl.bind (fun s => ih m s (by omega))))

theorem batch_le (findNaked : Bool) {n m : Nat} (h : n ≤ m) (s : Solver) :
    Res.Le (Solver.batch n findNaked s) (Solver.batch m findNaked s) :=
  andThen_le (batchInsert_le n m s h) (fun _ => Res.Le.rfl)

theorem insertLoop_le (findNaked : Bool) {n0 m0 : Nat} (h0 : n0 ≤ m0) : ∀ (n m : Nat) (s : Solver), n ≤ m →
    Res.Le (Solver.insertLoop n0 findNaked n s) (Solver.insertLoop m0 findNaked m s) := by
  intro n
  induction n with
  | zero => intro m s _; exact Or.inl rfl
  | succ n ih =>
    intro m s h
    obtain ⟨m, rfl⟩ : ∃ k, m = k + 1 := ⟨m - 1, by omega⟩
    unfold Solver.insertLoop
    refine Res.Le.ite Res.Le.rfl (Res.Le.ite Res.Le.rfl (Res.Le.ite ?_ ?_))
    · exact andThen_le (insertSingly_le findNaked n0 m0 s h0) (fun s => ih m s (by omega))
    · exact andThen_le (batch_le findNaked h0 s) (fun s => ih m s (by omega))

theorem update_le (findNaked early : Bool) {n m : Nat} (h : n ≤ m) (s : Solver) :
    Res.Le (Solver.update n findNaked early s) (Solver.update m findNaked early s) := by
  unfold Solver.update
  refine Res.Le.ite Res.Le.rfl (andThen_le Res.Le.rfl (fun s => ?_))
  unfold Solver.insertEntries
  refine Res.Le.rfl.bind (fun _ => Res.Le.ite ?_ (insertLoop_le findNaked h _ _ _ h))
  exact andThen_le (batch_le findNaked h _) (fun s => insertLoop_le findNaked h _ _ _ h)

theorem deduce_le (st : Strategy) (stop isFirst : Bool) {n m : Nat} (h : n ≤ m) (s : Solver) :
    Res.Le (st.deduce n stop isFirst s) (st.deduce m stop isFirst s) := by
  have hu : ∀ s, Res.Le (Solver.update n false true s) (Solver.update m false true s) := fun s => update_le false true h s
  cases st <;> unfold Strategy.deduce <;> dsimp only
  · exact Res.Le.ite (update_le _ _ h s) (andThen_le (hu s) (fun s => andThen_le Res.Le.rfl hu))
  · exact andThen_le (hu s) (fun s => andThen_le Res.Le.rfl hu)
  all_goals first
    | exact Res.Le.rfl
    | exact andThen_le (hu s) (fun s => Res.Le.rfl)
    | exact Res.Le.rfl.bind (fun s => andThen_le (hu s) (fun s => Res.Le.rfl))

theorem restLoop_le {n m : Nat} (h : n ≤ m) (nd ne : Nat) : ∀ (l : List Strategy) (s : Solver),
    Res.Le (restLoop n nd ne l s) (restLoop m nd ne l s) := by
  intro l
  induction l with
  | nil => intro s; exact Res.Le.rfl
  | cons st l ih =>
    intro s
    unfold restLoop
    exact (deduce_le st true false h s).bind (fun r => Res.Le.ite Res.Le.rfl (Res.Le.ite Res.Le.rfl (ih _)))

theorem solveLoop_le {n0 m0 : Nat} (h0 : n0 ≤ m0) (first : Strategy) (rest : List Strategy) : ∀ (n m : Nat) (s : Solver),
    n ≤ m → Res.Le (solveLoop n0 first rest n s) (solveLoop m0 first rest m s) := by
  intro n
  induction n with
  | zero => intro m s _; exact Or.inl rfl
  | succ n ih =>
    intro m s h
    obtain ⟨m, rfl⟩ : ∃ k, m = k + 1 := ⟨m - 1, by omega⟩
    unfold solveLoop
    refine Res.Le.ite Res.Le.rfl ((deduce_le first false true h0 s).bind (fun r => ?_))
    refine Res.Le.ite Res.Le.rfl (Res.Le.ite (ih m _ (by omega)) ?_)
    exact (restLoop_le h0 _ _ _ _).bind (fun r => Res.Le.ite (ih m _ (by omega)) Res.Le.rfl)

theorem solve_le {n m : Nat} (h : n ≤ m) (sts : List Strategy) (s : Solver) :
    Res.Le (s.solve n sts) (s.solve m sts) := by
  unfold Solver.solve
  refine Res.Le.bind ?_ (fun _ => Res.Le.rfl)
  unfold Solver.trySolve
  split
  · exact Res.Le.rfl
  · exact solveLoop_le h _ _ _ _ _ h

theorem cellState_le {n m : Nat} (h : n ≤ m) (s : Solver) (c : Fin 81) :
    Res.Le (s.cellState n c) (s.cellState m c) :=
  (update_le false false h _).bind (fun _ => Res.Le.rfl)

theorem gridState_le {n m : Nat} (h : n ≤ m) (s : Solver) : Res.Le (s.gridState n) (s.gridState m) :=
  (update_le false false h _).bind (fun _ => Res.Le.rfl)

end Strat

namespace Generator

theorem insertSingly_le : ∀ (n m : Nat) (s : Gen) (stack : List Candidate), n ≤ m →
    Res.Le (s.insertSingly n stack) (s.insertSingly m stack) := by
  intro n
  induction n with
  | zero => intro m s stack _; exact Or.inl (by unfold Gen.insertSingly; rfl)
  | succ n ih =>
    intro m s stack h
    obtain ⟨m, rfl⟩ : ∃ k, m = k + 1 := ⟨m - 1, by omega⟩
    cases stack with
    | nil => exact Or.inr (by unfold Gen.insertSingly; rfl)
    | cons e stack =>
      unfold Gen.insertSingly
      refine Res.Le.ite (ih m s stack (by omega)) (Res.Le.ite Res.Le.rfl (Res.Le.rfl.bind (fun s => Res.Le.rfl.bind (fun r => ?_))))
      exact Res.Le.ite Res.Le.rfl (ih m _ _ (by omega))

theorem insertEntries_le {n0 m0 : Nat} (h0 : n0 ≤ m0) : ∀ (n m : Nat) (s : Gen) (stack : List Candidate), n ≤ m →
    Res.Le (s.insertEntries n0 n stack) (s.insertEntries m0 m stack) := by
  intro n
  induction n with
  | zero => intro m s stack _; exact Or.inl (by unfold Gen.insertEntries; rfl)
  | succ n ih =>
    intro m s stack h
    obtain ⟨m, rfl⟩ : ∃ k, m = k + 1 := ⟨m - 1, by omega⟩
    unfold Gen.insertEntries
    refine Res.Le.ite Res.Le.rfl (Res.Le.ite ?_ ?_)
    · exact (insertSingly_le _ _ _ _ h0).bind (fun r => ih m _ _ (by omega))
    · exact Res.Le.rfl.bind (fun r => ih m _ _ (by omega))

theorem solveOne_le {n0 m0 : Nat} (h0 : n0 ≤ m0) : ∀ (n m : Nat) (s : Gen) (stack : List Candidate) (rng : Rng), n ≤ m →
    Res.Le (s.solveOne n0 n stack rng) (s.solveOne m0 m stack rng) := by
  intro n
  induction n with
  | zero => intro m s stack rng _; exact Or.inl (by unfold Gen.solveOne; rfl)
  | succ n ih =>
    intro m s stack rng h
    obtain ⟨m, rfl⟩ : ∃ k, m = k + 1 := ⟨m - 1, by omega⟩
    unfold Gen.solveOne
    rcases insertEntries_le h0 n0 m0 s stack h0 with hi | hi
    · rw [hi]
      exact Or.inl rfl
    · rw [hi]
      split
      · exact Res.Le.rfl
      · exact Res.Le.rfl
      · exact Res.Le.rfl
      · refine Res.Le.ite Res.Le.rfl ?_
        split
        · exact Res.Le.rfl
        · exact Res.Le.rfl
        · exact Res.Le.rfl
        · exact ih m _ _ _ (by omega)
        · refine Res.Le.rfl.bind (fun r => (ih m _ _ _ (by omega)).bind (fun r' => ?_))
          obtain ⟨g, rng⟩ := r'
          cases g with
          | some g => exact Res.Le.rfl
          | none =>
            dsimp only
            split
            · exact Res.Le.rfl
            · exact Res.Le.rfl
            · exact Res.Le.rfl
            · exact ih m _ _ _ (by omega)

theorem generateSolved_le {n m : Nat} (h : n ≤ m) (perm : List Nat) (rng : Rng) :
    Res.Le (generateSolved n perm rng) (generateSolved m perm rng) :=
  Res.Le.rfl.bind (fun stack => (solveOne_le h n m Gen.new stack rng h).bind (fun _ => Res.Le.rfl))

end Generator

end Verif
