import Verif.Props.StrategyNews
import Verif.Proofs.ExclTotal

/-!
# C69: how much `solve` records
-/
namespace Verif.Props

open Verif Verif.Strat

variable {looked : Bool} {s : Solver} {g : Grid} {X : Fin 81 → Digit → Prop} {fuel : Nat}

private theorem all_ok {α : Type} : ∀ {l : List (Res α)}, (∀ x ∈ l, ∃ a, x = .ok a) → ∃ xs : List α, l = xs.map Res.ok := by
  intro l
  induction l with
  | nil => exact fun _ => ⟨[], rfl⟩
  | cons x l ih =>
    intro h
    obtain ⟨a, rfl⟩ := h _ List.mem_cons_self
    obtain ⟨xs, rfl⟩ := ih fun y hy => h y (List.mem_cons_of_mem _ hy)
    exact ⟨a :: xs, rfl⟩

/-- A pattern enters a digit or excludes something. -/
private theorem useful {cand : Fin 81 → Digit → Prop} {st : Strategy} {x : Deduction (List Candidate)}
    (h : Pattern.Matches cand st x) : Pattern.entry x ≠ none ∨ 0 < (Pattern.removed x).length := by
  have key : ∀ {l : List Candidate} {P : Fin 81 → Digit → Prop}, Pattern.Lists l cand P → 0 < l.length :=
    fun h => List.length_pos_of_ne_nil h.1
  cases x with
  | nakedSingles e => exact Or.inl (by simp [Pattern.entry])
  | hiddenSingles e h => exact Or.inl (by simp [Pattern.entry])
  | lockedCandidates d m isP l =>
    right
    cases st <;> first | exact h.elim | skip
    simp only [Pattern.Matches] at h
    split at h <;> exact key h.2.2
  | subsets ho p d l => right; cases st <;> first | exact h.elim | exact key h.2.2.2.2.2
  | basicFish d li p l =>
    right
    cases st <;> first | exact h.elim | (obtain ⟨_, _, _, _, _, _, _, h⟩ := h; exact key h)
  | wing hi hd p l =>
    right
    cases st <;> first | exact h.elim | (obtain ⟨_, _, _, _, _, _, _, _, _, _, _, _, _, _, _, _, h⟩ := h; exact key h)
  | fish d a b l => cases st <;> exact h.elim
  | avoidableRectangle l l' => cases st <;> exact h.elim

private theorem total (P : Deduction (List Candidate) → Prop)
    (hP : ∀ x, P x → Pattern.entry x ≠ none ∨ 0 < (Pattern.removed x).length) :
    ∀ xs : List (Deduction (List Candidate)), (∀ x ∈ xs, P x) →
    xs.length ≤ (xs.filterMap Pattern.entry).length + (xs.map fun x => (Pattern.removed x).length).sum := by
  intro xs
  induction xs with
  | nil => intro _; simp
  | cons x xs ih =>
    intro h
    have := ih fun y hy => h y (List.mem_cons_of_mem _ hy)
    rw [List.map_cons, List.sum_cons, List.length_cons]
    cases he : Pattern.entry x with
    | none =>
      rw [List.filterMap_cons_none he]
      have := (hP x (h x List.mem_cons_self)).resolve_left (by simp [he])
      omega
    | some e =>
      rw [List.filterMap_cons_some he, List.length_cons]
      omega

/-- **C69**: for a sudoku with a solution, whatever strategies are listed in whatever order, fewer than 65536 deductions
are recorded, and they exclude fewer than 65536 candidates together (counted as often as they are listed), so that the
counters of 16 bits in the solver never wrap around. -/
theorem C69_few (h : Reaches looked s g X) (hf : 1000 ≤ fuel) (sts : List Strategy) (r : Grid × Deductions)
    (hr : Returned fuel sts s r) (t : Grid) (ht : SolutionOf g X t) :
    ∃ xs : List (Deduction (List Candidate)), r.2.iter = xs.map Res.ok ∧ xs.length < 65536 ∧
      (xs.map fun x => (Pattern.removed x).length).sum < 65536 := by
  obtain ⟨a1, a2, -⟩ := C46_read_deductions h (Or.inr (Consistent.of_solution ht)) hf sts r hr
  have hlen : r.2.iter.length ≤ r.2.len := by
    have := (a2 r.2.len (Nat.le_refl _)).2
    exact List.getElem?_eq_none_iff.mp this
  obtain ⟨xs, hxs⟩ : ∃ xs : List (Deduction (List Candidate)), r.2.iter = xs.map Res.ok := by
    refine all_ok fun x hx => ?_
    obtain ⟨i, hi, e⟩ := List.getElem_of_mem hx
    obtain ⟨d, -, h1, -⟩ := a1 i (by omega)
    rw [List.getElem?_eq_getElem hi, e] at h1
    exact ⟨d, Option.some.inj h1⟩
  have hget : ∀ i x, xs[i]? = some x → r.2.get i = .ok (some x) := by
    intro i x hi
    have h1 : r.2.iter[i]? = some (.ok x) := by rw [hxs, List.getElem?_map, hi]; rfl
    have h2 : i < r.2.iter.length := (List.getElem?_eq_some_iff.mp h1).1
    obtain ⟨d, h3, h4, -⟩ := a1 i (by omega)
    rw [h1] at h4
    cases h4
    exact h3
  obtain ⟨s', b1, b2, b3⟩ := solve_tried hr
  obtain ⟨c1, c2⟩ := trySolve_few h hf ht b1
  have hall : List.Forall₂ (fun d x => withSlices d s'.eliminated = .ok x) s'.deductions xs := by
    have e : r.2.iter = s'.deductions.map fun d => withSlices d s'.eliminated := by
      unfold Deductions.iter
      rw [b2, b3]
    rw [e] at hxs
    generalize s'.deductions = ds at hxs
    clear * - hxs
    induction ds generalizing xs with
    | nil => cases xs with
      | nil => exact .nil
      | cons => cases hxs
    | cons d ds ih => cases xs with
      | nil => cases hxs
      | cons x xs =>
        rw [List.map_cons, List.map_cons, List.cons.injEq] at hxs
        exact .cons hxs.1 (ih xs hxs.2)
  have hsum := c2.sum xs hall
  refine ⟨xs, hxs, ?_, by omega⟩
  have hcells : ((xs.filterMap Pattern.entry).map Candidate.cell).Nodup := by
    unfold List.Nodup
    rw [List.pairwise_map, List.pairwise_filterMap, List.pairwise_iff_getElem]
    intro i j hi hj hij e he e' he' hc
    have := (C51_entries_once h hf sts r hr i _ e (hget i _ (List.getElem?_eq_getElem hi)) he).2 j _ e'
      (hget j _ (List.getElem?_eq_getElem hj)) he' hc.symm
    omega
  have h81 := hcells.length_le_card
  rw [Fintype.card_fin, List.length_map] at h81
  have htot := total (fun x => ∃ i, xs[i]? = some x) (fun x ⟨i, hi⟩ => by
    obtain ⟨st, -, -, E, R, -, -, hm⟩ := C47_explained h hf sts r hr t ht i x (hget i x hi)
    exact useful hm) xs (fun x hx => List.mem_iff_getElem?.mp hx)
  omega

/-- The solution of `stuck`. -/
def stuckSolution : Grid := #v[
  6,7,9,8,3,5,4,1,2, 1,2,3,6,9,4,7,5,8, 5,4,8,2,1,7,9,3,6,
  4,1,6,7,2,3,8,9,5, 8,9,2,5,6,1,3,7,4, 7,3,5,4,8,9,6,2,1,
  2,8,7,9,5,6,1,4,3, 9,6,1,3,4,2,5,8,7, 3,5,4,1,7,8,2,6,9]

/-- C69: for a sudoku where `LockedCandidates` excludes a candidate twice. -/
example : ∃ s r, ∃ xs : List (Deduction (List Candidate)), Reaches false s stuck (fun _ _ => False) ∧
    SolutionOf stuck (fun _ _ => False) stuckSolution ∧
    Returned 1000 [.lockedCandidates] s r ∧ r.2.iter = xs.map Res.ok ∧ 2 < xs.length ∧ xs.length < 65536 := by
  obtain ⟨s, r, h1, h2, x, y, hx, hy, -, -⟩ := C52_repeated_false
  have ht : SolutionOf stuck (fun _ _ => False) stuckSolution := ⟨by decide +kernel, fun _ _ h => h.elim⟩
  obtain ⟨xs, e, h3, -⟩ := C69_few h1 (Nat.le_refl _) _ r h2 _ ht
  refine ⟨s, r, xs, h1, ht, h2, e, ?_, h3⟩
  obtain ⟨-, a2, -⟩ := C46_read_deductions h1 (Or.inl rfl) (Nat.le_refl _) _ r h2
  have h4 : 2 < r.2.len := by
    by_contra hc
    have := (a2 2 (by omega)).1
    rw [hy] at this
    cases this
  have h5 : r.2.iter.length = r.2.len := by
    unfold Deductions.iter Deductions.len
    simp
  rw [e, List.length_map] at h5
  omega

/-- The grid state where each cell has the digit of a completed grid as its only candidate. -/
def onlyCandidates : Vector CellState 81 :=
  Vector.ofFn fun c => .candidates (Bitset.asSet 16 (Ex.solved[c].toNat - 1))

private def manyExclusions (grid : Vector CellState 81) : Bool :=
  match Solver.fromGridState grid with
  | .ok s => decide (256 < s.eliminated.length) &&
    match Solver.update 1000 true true s with
    | .ok r => decide (256 < r.1.cpElim)
    | _ => false
  | _ => false

private theorem of_manyExclusions {grid : Vector CellState 81} (h : manyExclusions grid = true) :
    ∃ s, Solver.fromGridState grid = .ok s ∧ 256 < s.eliminated.length ∧
      ∃ r, Solver.update 1000 true true s = .ok r ∧ 256 < r.1.cpElim := by
  unfold manyExclusions at h
  split at h
  · rename_i s hs
    rw [Bool.and_eq_true] at h
    refine ⟨s, hs, of_decide_eq_true h.1, ?_⟩
    have h2 := h.2
    split at h2
    · rename_i r hr
      exact ⟨r, hr, of_decide_eq_true h2⟩
    · cases h2
  · cases h

/-- **C69**: the comment on the counter of processed exclusions says that it probably does not exceed 2^8 (src/strategy/solver.rs
line 1153).  For the grid state where each cell has the digit of a completed grid as its only candidate it does, as soon
as the solver is asked for anything. -/
theorem C69_comment_false : ∃ (grid : Vector CellState 81) (t : Grid), Solved t ∧
    (∀ (c : Fin 81) (d : Digit), t[c] = d.get → grid[c] = .candidates (Bitset.asSet 16 d.val)) ∧
    ∃ s, Solver.fromGridState grid = .ok s ∧ 256 < s.eliminated.length ∧
      ∃ r, Solver.update 1000 true true s = .ok r ∧ 256 < r.1.cpElim :=
  ⟨onlyCandidates, Ex.solved, by decide +kernel, by decide +kernel, of_manyExclusions (by decide +kernel)⟩

end Verif.Props
