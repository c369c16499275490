import Verif.Proofs.Agree

/-! A search with a smaller limit finds the first solutions of one with a larger limit. -/
namespace Verif.FastSolver

/-- The results, if both return, are related. -/
def Both {α β : Type} (R : α → β → Prop) (x : Res α) (y : Res β) : Prop := ∀ a b, x = .ok a → y = .ok b → R a b

theorem ok_of_bind {α β : Type} {x : Res α} {f : α → Res β} {r : β} (h : x >>= f = .ok r) :
    ∃ a, x = .ok a ∧ f a = .ok r := by
  cases x with
  | ok a => exact ⟨a, rfl, h⟩
  | err => cases h
  | panic => cases h
  | timeout => cases h

theorem Both.bind {α β γ δ : Type} {R : α → β → Prop} {Q : γ → δ → Prop} {x : Res α} {y : Res β}
    {f : α → Res γ} {g : β → Res δ} (h : Both R x y) (hf : ∀ a b, R a b → Both Q (f a) (g b)) :
    Both Q (x >>= f) (y >>= g) := by
  intro a b ha hb
  obtain ⟨a', e1, e2⟩ := ok_of_bind ha
  obtain ⟨b', e3, e4⟩ := ok_of_bind hb
  exact hf a' b' (h a' b' e1 e3) a b e2 e4

theorem Both.bindEq {α γ δ : Type} {Q : γ → δ → Prop} (x : Res α)
    {f : α → Res γ} {g : α → Res δ} (hf : ∀ a, Both Q (f a) (g a)) : Both Q (x >>= f) (x >>= g) :=
  Both.bind (R := Eq) (fun a b ha hb => by rw [ha] at hb; exact Res.ok.inj hb) fun a b e => by subst e; exact hf a

theorem Both.ok {α β : Type} {R : α → β → Prop} {a : α} {b : β} (h : R a b) : Both R (.ok a) (.ok b) := by
  intro a' b' ha hb
  cases ha
  cases hb
  exact h

/-- The first vector holds the first `n` solutions of the second one. -/
def Cut (n : Nat) (a b : Solutions) : Prop := ∃ v w : List Grid, a = .vector v ∧ b = .vector w ∧ v = w.take n

theorem Cut.eq {n : Nat} {a b : Solutions} (h : Cut n a b) (hl : a.len < n) : b = a := by
  obtain ⟨v, w, rfl, rfl, rfl⟩ := h
  have hl : (w.take n).length < n := hl
  rw [List.length_take] at hl
  rw [List.take_of_length_le (by omega)]

theorem Cut.le {n : Nat} {a b : Solutions} (h : Cut n a b) : a.len ≤ n := by
  obtain ⟨v, w, rfl, rfl, rfl⟩ := h
  show (w.take n).length ≤ n
  rw [List.length_take]
  omega

theorem foldl_add_vector : ∀ (L v : List Grid), L.foldl Solutions.add (.vector v) = .vector (v ++ L) := by
  intro L
  induction L with
  | nil => intro v; rw [List.append_nil]; rfl
  | cons t L ih =>
    intro v
    rw [List.foldl_cons]
    show L.foldl Solutions.add (.vector (v ++ [t])) = _
    rw [ih, List.append_assoc]
    rfl

/-- More solutions do not matter if the limit is reached. -/
theorem Cut.more {n : Nat} {a b : Solutions} (h : Cut n a b) (hl : a.len = n) (L : List Grid) :
    Cut n a (L.foldl Solutions.add b) := by
  obtain ⟨v, w, rfl, rfl, rfl⟩ := h
  have hl : (w.take n).length = n := hl
  rw [List.length_take] at hl
  refine ⟨_, w ++ L, rfl, foldl_add_vector L w, ?_⟩
  rw [List.take_append_of_le_length (by omega)]

/-- A run only adds solutions. -/
def Grows (x : Res Solutions) (b : Solutions) : Prop := ∀ b', x = .ok b' → ∃ L : List Grid, b' = L.foldl Solutions.add b

theorem Grows.of_agree {x : Res Solutions} {b : Solutions} (h : Agree (Same b b) x x) : Grows x b := by
  intro b' hb
  rw [hb] at h
  obtain ⟨L, h1, -⟩ := h
  exact ⟨L, h1⟩

section
variable {f d n m : Nat}

theorem solveThen_grows (s : Solver) (b : Solutions) :
    Grows (s.solveThen f (fun s acc => Solver.guess f d s m acc) m b) b :=
  Grows.of_agree (solveThen_agree rfl (guess_agree rfl f f m d d) s m ⟨[], rfl, rfl⟩)

theorem bivalueLoop_grows (mask : Mask) (k : Nat) (s : Solver) (i : Nat) (first : Bool) (b : Solutions) :
    Grows (Solver.bivalueLoop f (fun s acc => Solver.guess f d s m acc) m mask k s i first b) b :=
  Grows.of_agree (bivalueLoop_agree rfl (guess_agree rfl f f m d d) m mask k s i first b b ⟨[], rfl, rfl⟩)

theorem someCellLoop_grows (c : Fin 3) (mask : Mask) (ds : List (Fin 9)) (s : Solver) (b : Solutions) :
    Grows (Solver.someCellLoop f (fun s acc => Solver.guess f d s m acc) m c mask ds s b) b :=
  Grows.of_agree (someCellLoop_agree rfl (guess_agree rfl f f m d d) m c mask ds s b b ⟨[], rfl, rfl⟩)

/-- What is needed of the recursive calls. -/
def RecCut (f d n m : Nat) : Prop := ∀ s a b, Cut n a b → Both (Cut n) (Solver.guess f d s n a) (Solver.guess f d s m b)

theorem solveThen_cut (hnm : n ≤ m) (hr : RecCut f d n m) (s : Solver) {a b : Solutions} (h : Cut n a b) :
    Both (Cut n) (s.solveThen f (fun s acc => Solver.guess f d s n acc) n a)
      (s.solveThen f (fun s acc => Solver.guess f d s m acc) m b) := by
  by_cases hl : a.len = n
  · intro a' b' ha hb
    obtain ⟨L, rfl⟩ := solveThen_grows s b b' hb
    unfold Solver.solveThen Solver.solve at ha
    rw [decide_eq_true (by omega), Res.assert_true, Res.ok_bind, if_pos hl] at ha
    cases ha
    exact h.more hl L
  · have hlt : a.len < n := by have := h.le; omega
    have hb := h.eq hlt
    subst hb
    unfold Solver.solveThen Solver.solve
    rw [decide_eq_true (by omega), decide_eq_true (by omega), Res.assert_true, Res.ok_bind, Res.ok_bind, if_neg hl,
      if_neg (by omega)]
    cases s.solveLoop f f with
    | ok s' => exact hr s' b b h
    | err => exact Both.ok h
    | panic => intro a b ha; cases ha
    | timeout => intro a b ha; cases ha

theorem bivalueLoop_cut (hnm : n ≤ m) (hr : RecCut f d n m) (mask : Mask) (k : Nat) :
    ∀ (s : Solver) (i : Nat) (first : Bool) (a b : Solutions), Cut n a b →
    Both (Cut n) (Solver.bivalueLoop f (fun s acc => Solver.guess f d s n acc) n mask k s i first a)
      (Solver.bivalueLoop f (fun s acc => Solver.guess f d s m acc) m mask k s i first b) := by
  induction k with
  | zero => intro s i first a b _ a' b' ha; cases ha
  | succ k ih =>
    intro s i first a b h
    unfold Solver.bivalueLoop
    split
    · simp only
      split
      · cases first
        · exact Both.bindEq _ fun s' => solveThen_cut hnm hr s' h
        · refine Both.bindEq _ fun s' => Both.bind (solveThen_cut hnm hr s' h) fun a' b' h' => ?_
          exact ih _ _ _ _ _ h'
      · exact ih _ _ _ _ _ h
    · intro a' b' ha; cases ha

theorem guessBivalue_cut (hnm : n ≤ m) (hr : RecCut f d n m) (s : Solver) {a b : Solutions} (h : Cut n a b)
    (bs : List (Fin 3)) :
    Both (fun x y => (x = none ∧ y = none) ∨ ∃ x' y', x = some x' ∧ y = some y' ∧ Cut n x' y')
      (Solver.guessBivalue f (fun s acc => Solver.guess f d s n acc) s n a bs)
      (Solver.guessBivalue f (fun s acc => Solver.guess f d s m acc) s m b bs) := by
  induction bs with
  | nil => exact Both.ok (Or.inl ⟨rfl, rfl⟩)
  | cons c bs ih =>
    unfold Solver.guessBivalue
    cases maskIter s.pairs[c] with
    | nil => exact ih
    | cons mk ms =>
      exact Both.bind (bivalueLoop_cut hnm hr mk 10 s c.val true a b h)
        fun x y hxy => Both.ok (Or.inr ⟨x, y, rfl, rfl, hxy⟩)

theorem someCellLoop_cut (hnm : n ≤ m) (hr : RecCut f d n m) (c : Fin 3) (mask : Mask) (ds : List (Fin 9)) :
    ∀ (s : Solver) (a b : Solutions), Cut n a b →
    Both (Cut n) (Solver.someCellLoop f (fun s acc => Solver.guess f d s n acc) n c mask ds s a)
      (Solver.someCellLoop f (fun s acc => Solver.guess f d s m acc) m c mask ds s b) := by
  induction ds with
  | nil => intro s a b h; exact Both.ok h
  | cons e ds ih =>
    intro s a b h
    unfold Solver.someCellLoop
    simp only
    split
    · refine Both.bindEq _ fun s' => Both.bind (solveThen_cut hnm hr s' h) fun a' b' h' => ?_
      by_cases hl : a'.len = n
      · rw [if_pos hl]
        intro x y hx hy
        cases hx
        split at hy
        · cases hy; exact h'
        · obtain ⟨L, rfl⟩ := someCellLoop_grows c mask ds _ b' y hy
          exact h'.more hl L
      · rw [if_neg hl]
        have hlt : a'.len < n := by have := h'.le; omega
        have hb := h'.eq hlt
        subst hb
        rw [if_neg (by omega)]
        exact ih _ _ _ h'
    · exact ih _ _ _ h

theorem guess_cut (hnm : n ≤ m) : RecCut f d n m := by
  induction d with
  | zero => intro s a b _ a' b' ha; cases ha
  | succ d ih =>
    intro s a b h
    unfold Solver.guess
    simp only
    split
    · intro x y hx hy
      obtain ⟨u, hu, hx⟩ := ok_of_bind hx
      obtain ⟨-, -, hy⟩ := ok_of_bind hy
      have hlt : a.len < n := by
        by_contra hn
        rw [decide_eq_false hn] at hu
        cases hu
      have hb := h.eq hlt
      subst hb
      obtain ⟨v, w, rfl, e, -⟩ := h
      unfold Solver.record at hx hy
      obtain ⟨t, ht, hx⟩ := ok_of_bind hx
      obtain ⟨t', ht', hy⟩ := ok_of_bind hy
      rw [ht] at ht'
      cases ht'
      cases hx
      cases hy
      refine ⟨_, _, rfl, rfl, ?_⟩
      have hlt : v.length < n := hlt
      rw [List.take_of_length_le (by simp; omega)]
    · refine Both.bind (guessBivalue_cut hnm ih s h (List.finRange 3)) ?_
      rintro x y (⟨rfl, rfl⟩ | ⟨x', y', rfl, rfl, h'⟩)
      · simp only
        unfold Solver.guessSomeCell
        split
        · exact Both.ok h
        · exact someCellLoop_cut hnm ih _ _ _ _ _ _ h
      · exact Both.ok h'

theorem runSudoku_cut (hnm : n ≤ m) (g : Grid) :
    Both (Cut n) (runSudoku f g n (.vector [])) (runSudoku f g m (.vector [])) := by
  have h : Cut n (.vector []) (.vector []) := ⟨[], [], rfl, rfl, by simp⟩
  unfold runSudoku
  split
  · exact Both.ok h
  · intro a b ha; cases ha
  · intro a b ha; cases ha
  · unfold Solver.run
    split
    · exact Both.ok h
    · intro a b ha; cases ha
    · intro a b ha; cases ha
    · exact solveThen_cut hnm (guess_cut hnm) _ h

end

end Verif.FastSolver
