import Verif.Proofs.Generate

/-!
# C30-C34: generating puzzles by removing clues

`order` is the order in which the cells are visited, the result of `shuffle`; every theorem is about all orders.
-/
namespace Verif.Props

open Verif Sudoku

/-- The mirrors and rotations the documentation names for each symmetry, src/board/sudoku.rs lines 102-120. -/
def motions : Symmetry → List Motion
  | .verticalMirror => [.vertical]
  | .horizontalMirror => [.horizontal]
  | .verticalAndHorizontalMirror => [.vertical, .horizontal]
  | .diagonalMirror => [.diagonal]
  | .antidiagonalMirror => [.antidiagonal]
  | .bidiagonalMirror => [.diagonal, .antidiagonal]
  | .quarterRotation => [.quarter]
  | .halfRotation => [.half]
  | .dihedral => [.vertical, .horizontal, .diagonal, .antidiagonal, .quarter, .half]
  | .none => []

/-- `y` is reached from `x` by a sequence of the mirrors and rotations of the symmetry. -/
def Linked (s : Symmetry) : Fin 81 → Fin 81 → Prop :=
  Relation.ReflTransGen (fun a b => ∃ m ∈ motions s, b = m.cell a)

/-- Words in the motions that lead to the corresponding cells. -/
def words : Symmetry → List (List Motion)
  | .none => [[]]
  | .verticalMirror => [[], [.vertical]]
  | .horizontalMirror => [[], [.horizontal]]
  | .verticalAndHorizontalMirror => [[], [.horizontal], [.vertical], [.horizontal, .vertical]]
  | .diagonalMirror => [[], [.diagonal]]
  | .antidiagonalMirror => [[], [.antidiagonal]]
  | .bidiagonalMirror => [[], [.diagonal], [.antidiagonal], [.diagonal, .antidiagonal]]
  | .quarterRotation => [[], [.quarter, .quarter], [.quarter], [.quarter, .quarter, .quarter]]
  | .halfRotation => [[], [.half]]
  | .dihedral => [[], [.vertical], [.horizontal], [.half], [.diagonal], [.quarter],
      [.quarter, .quarter, .quarter], [.antidiagonal]]

theorem words_ok : ∀ s ∈ allSymmetries, (∀ w ∈ words s, ∀ m ∈ w, m ∈ motions s) ∧
    ∀ x : Fin 81, correspondingCells s x.val = (words s).map (fun w => (w.foldl (fun c m => m.cell c) x).val) := by
  decide +kernel

theorem motions_closed : ∀ s ∈ allSymmetries, ∀ m ∈ motions s, ∀ x : Fin 81,
    (m.cell x).val ∈ correspondingCells s x.val := by
  decide +kernel

theorem linked_word {s : Symmetry} : ∀ (w : List Motion) (x : Fin 81), (∀ m ∈ w, m ∈ motions s) →
    Linked s x (w.foldl (fun c m => m.cell c) x) := by
  intro w
  induction w with
  | nil => intro x _; exact Relation.ReflTransGen.refl
  | cons m w ih =>
    intro x h
    exact Relation.ReflTransGen.head ⟨m, h m (by simp), rfl⟩ (ih _ (fun m' hm => h m' (List.mem_cons_of_mem _ hm)))

/-- **C34**: the cells that are filled or emptied together with a cell are exactly those reached from it by the
mirrors and rotations the documentation names. -/
theorem C34_corresponding_cells (s : Symmetry) (x y : Fin 81) :
    y.val ∈ correspondingCells s x.val ↔ Linked s x y := by
  constructor
  · intro h
    rw [(words_ok s (mem_allSymmetries s)).2 x, List.mem_map] at h
    obtain ⟨w, hw, e⟩ := h
    rw [← Fin.ext e]
    exact linked_word w x ((words_ok s (mem_allSymmetries s)).1 w hw)
  · intro h
    rw [← mem_classOf]
    induction h with
    | refl => exact class_self s x
    | tail _ hm ih =>
      obtain ⟨m, hm, rfl⟩ := hm
      rw [class_eq s ih, mem_classOf]
      exact motions_closed s (mem_allSymmetries s) m hm _

/-- **C34**: all corresponding cells are on the board, and the classes partition the board. -/
theorem C34_classes_partition (s : Symmetry) :
    (∀ x : Fin 81, ∀ n ∈ correspondingCells s x.val, n < 81) ∧
    Equivalence (fun x y : Fin 81 => y.val ∈ correspondingCells s x.val) := by
  refine ⟨fun x n hn => ?_, ?_⟩
  · rw [cells_eq, List.mem_map] at hn
    obtain ⟨y, -, rfl⟩ := hn
    exact y.isLt
  · simp only [← mem_classOf]
    exact ⟨class_self s, fun h => class_symm s h, fun h1 h2 => (class_eq s h1 _).2 h2⟩

/-- Non-vacuity: some classes. -/
example : correspondingCells .dihedral 1 = [1, 7, 73, 79, 9, 17, 63, 71] ∧
    correspondingCells .quarterRotation 40 = [40, 40, 40, 40] := by decide

theorem linked_class {s : Symmetry} {x y : Fin 81} : Linked s x y ↔ y ∈ classOf s x := by
  rw [← C34_corresponding_cells, mem_classOf]

/-- **C30**: generating from a uniquely solvable sudoku returns a uniquely solvable sudoku with the same solution
whose clues are among those of the input.  It never panics. -/
theorem C30_generate_from (g : Grid) (hw : WellFormed g) (hu : UniquelySolvable g) (s : Symmetry)
    (order : List Nat) (ho : order.Perm (List.range 81)) (fuel : Nat) (hf : 800 ≤ fuel) :
    ∃ g', generateWithSymmetryFrom fuel g s order = .ok g' ∧ SubClues g' g ∧ UniquelySolvable g' ∧
      ∀ t, IsSolution g' t ↔ IsSolution g t := by
  obtain ⟨g', h1, v, inv⟩ := generate_spec fuel hf s g hw ho
  have hu' : UniquelySolvable g' := by
    rcases inv.unique with h | h
    · exact h
    · rw [h]; exact hu
  refine ⟨g', h1, inv.sub, hu', fun t => ⟨fun h => ?_, fun h => inv.sub.isSolution h⟩⟩
  obtain ⟨t0, ht0, _⟩ := hu
  obtain ⟨t1, ht1, hu1⟩ := hu'
  have e := hu1 t0 (inv.sub.isSolution ht0)
  rw [hu1 t h, ← e]; exact ht0

/-- **C31**: in the generated sudoku no symmetry class that holds a clue can be emptied without losing uniqueness. -/
theorem C31_minimal (g : Grid) (hw : WellFormed g) (hu : UniquelySolvable g) (s : Symmetry)
    (order : List Nat) (ho : order.Perm (List.range 81)) (fuel : Nat) (hf : 800 ≤ fuel) :
    ∃ g', generateWithSymmetryFrom fuel g s order = .ok g' ∧
      ∀ x : Fin 81, g'[x] ≠ 0 → ∀ g'' : Grid,
        (∀ y : Fin 81, (Linked s x y → g''[y] = 0) ∧ (¬ Linked s x y → g''[y] = g'[y])) →
        ¬ UniquelySolvable g'' := by
  obtain ⟨g', h1, v, inv⟩ := generate_spec fuel hf s g hw ho
  refine ⟨g', h1, fun x hx g'' hg => ?_⟩
  have hv : v[x] = true := by
    rcases inv.todo x with h | h
    · cases h
    · exact h
  have e : g'' = without g' (classOf s x) := by
    apply grid_ext
    intro y
    rw [without_get]
    split
    · rename_i h; exact (hg y).1 (linked_class.2 h)
    · rename_i h; exact (hg y).2 (fun h' => h (linked_class.1 h'))
  rw [e]
  rcases inv.minimal (by obtain ⟨t, ht, _⟩ := hu; exact ⟨t, ht⟩) x hv with h | h
  · exact absurd (h x (class_self s x)) hx
  · exact h

/-- **C31** for `generate_from`: no single clue can be removed. -/
theorem C31_minimal_single (g : Grid) (hw : WellFormed g) (hu : UniquelySolvable g)
    (order : List Nat) (ho : order.Perm (List.range 81)) (fuel : Nat) (hf : 800 ≤ fuel) :
    ∃ g', generateFrom fuel g order = .ok g' ∧
      ∀ x : Fin 81, g'[x] ≠ 0 → ¬ UniquelySolvable (g'.set x 0) := by
  obtain ⟨g', h1, h2⟩ := C31_minimal g hw hu .none order ho fuel hf
  refine ⟨g', h1, fun x hx => h2 x hx _ (fun y => ?_)⟩
  rw [linked_class, mem_classOf]
  simp only [correspondingCells, List.mem_singleton, Fin.getElem_fin, Vector.getElem_set]
  refine ⟨fun h => by rw [if_pos h.symm], fun h => by rw [if_neg (fun h' => h h'.symm)]⟩

/-- **C32**: if the filled cells of the input have the symmetry, so have those of the output. -/
theorem C32_symmetric (g : Grid) (hw : WellFormed g) (s : Symmetry) (hs : ∀ m ∈ motions s, SymmetricUnder m g)
    (order : List Nat) (ho : order.Perm (List.range 81)) (fuel : Nat) (hf : 800 ≤ fuel) :
    ∃ g', generateWithSymmetryFrom fuel g s order = .ok g' ∧ ∀ m ∈ motions s, SymmetricUnder m g' := by
  obtain ⟨g', h1, v, inv⟩ := generate_spec fuel hf s g hw ho
  refine ⟨g', h1, fun m hm x hx => ?_⟩
  have hmem : m.cell x ∈ classOf s x := linked_class.1 (Relation.ReflTransGen.single ⟨m, hm, rfl⟩)
  rcases inv.whole x with h | h
  · exact absurd (h x (class_self s x)) hx
  · rw [h _ hmem]
    apply hs m hm
    rw [← h x (class_self s x)]
    exact hx

/-- **C33** (partial): a sudoku with several solutions is returned as is.  A sudoku without solution is returned
as is unless a uniquely solvable sudoku came up on the way, of which then a part is returned.
Missing: the documentation says that invalid sudokus are returned as is too, which is false, see
`C33_documentation_false`. -/
theorem C33_not_uniquely_solvable_partial (g : Grid) (hw : WellFormed g) (s : Symmetry)
    (order : List Nat) (ho : order.Perm (List.range 81)) (fuel : Nat) (hf : 800 ≤ fuel) :
    ∃ g', generateWithSymmetryFrom fuel g s order = .ok g' ∧
      ((∃ t t', t ≠ t' ∧ IsSolution g t ∧ IsSolution g t') → g' = g) ∧
      (g' = g ∨ (SubClues g' g ∧ UniquelySolvable g')) := by
  obtain ⟨g', h1, v, inv⟩ := generate_spec fuel hf s g hw ho
  refine ⟨g', h1, ?_, ?_⟩
  · rintro ⟨t, t', hne, ht, ht'⟩
    rcases inv.unique with ⟨t0, -, h0⟩ | h
    · exact absurd ((h0 t (inv.sub.isSolution ht)).trans (h0 t' (inv.sub.isSolution ht')).symm) hne
    · exact h
  · rcases inv.unique with h | h
    · exact .inr ⟨inv.sub, h⟩
    · exact .inl h

theorem first_removed (s : Symmetry) (c : Fin 81) (order : List (Fin 81)) (v v' : Vector Bool 81) (g tmp : Grid)
    (hv : v[c] = false) (hc : clearCells ((classOf s c).map Fin.val) v g = .ok (v', tmp))
    (hu : isUniquelySolvable 800 tmp = .ok true) (hw : WellFormed tmp) :
    ∃ g', generateLoop 800 s ((c :: order).map Fin.val) v g = .ok g' ∧ UniquelySolvable g' := by
  have hut : UniquelySolvable tmp := by
    obtain ⟨b, hb1, hb2⟩ := C05_is_uniquely_solvable _ hw 800 le_rfl
    rw [hu] at hb1
    exact hb2.1 (Res.ok.inj hb1).symm
  obtain ⟨g', hg, hug⟩ := genLoop_unique 800 le_rfl s order v' tmp hw hut
  refine ⟨g', ?_, hug⟩
  rw [genLoop_step, if_neg (by rw [hv]; simp), hc]
  simp only [Res.ok_bind, hu, if_true, hg]

/-- A solved board with one cell changed: unsolvable. -/
def spoiled : Grid := Ex.solved.set 0 5

/-- **C33**, the documentation refuted: an invalid sudoku (two equal digits in a row) that is not returned as is;
the cell with the wrong digit is removed when it is visited first. -/
theorem C33_documentation_false : WellFormed spoiled ∧ (∀ t, ¬ IsSolution spoiled t) ∧
    ∃ order g', order.Perm (List.range 81) ∧ generateFrom 800 spoiled order = .ok g' ∧ g' ≠ spoiled := by
  have hns : ∀ t, ¬ IsSolution spoiled t := by
    intro t h
    have h0 := h.2 0 (by decide +kernel)
    have h1 := h.2 7 (by decide +kernel)
    exact h.1.2 0 7 (by decide) (by decide) (h0.trans (Eq.trans (by decide +kernel) h1.symm))
  refine ⟨by decide +kernel, hns, List.range 81, ?_⟩
  have hlist : List.range 81 = ((0 : Fin 81) :: (List.finRange 81).tail).map Fin.val := by decide +kernel
  have hclear : clearCells ((classOf .none 0).map Fin.val) (Vector.replicate 81 false) spoiled =
      .ok ((Vector.replicate 81 false).set 0 true, spoiled.set 0 0) := by decide +kernel
  have huniq : isUniquelySolvable 800 (spoiled.set 0 0) = .ok true := by decide +kernel
  have hv : (Vector.replicate 81 false)[(0 : Fin 81)] = false := by decide +kernel
  have hw : WellFormed (spoiled.set 0 0) := by decide +kernel
  obtain ⟨g', hg, hug⟩ := first_removed .none 0 (List.finRange 81).tail _ _ _ _ hv hclear huniq hw
  refine ⟨g', List.Perm.refl _, ?_, ?_⟩
  · unfold generateFrom generateWithSymmetryFrom
    rw [hlist]
    exact hg
  · rintro rfl
    obtain ⟨t, ht, -⟩ := hug
    exact hns t ht

/-- Non-vacuity: a uniquely solvable sudoku, a full grid (which has every symmetry), an order, and a sudoku
with two solutions. -/
example : WellFormed Ex.solved ∧ UniquelySolvable Ex.solved ∧ (List.range 81).Perm (List.range 81) ∧
    (∀ m, SymmetricUnder m Ex.solved) ∧
    (∃ t t', t ≠ t' ∧ IsSolution Ex.twoSolutions t ∧ IsSolution Ex.twoSolutions t') := by
  have hs : Solved Ex.solved := by decide +kernel
  refine ⟨by decide +kernel, ⟨Ex.solved, ⟨hs, fun _ _ => rfl⟩, ?_⟩, List.Perm.refl _, ?_,
    Ex.solved, (((Ex.solved.set 1 6).set 6 8).set 10 8).set 15 6, ?_⟩
  · intro t ht
    apply grid_ext
    intro x
    apply ht.2
    intro h0
    have := (hs.1 x).1
    rw [h0] at this
    exact absurd this (by decide)
  · intro m x _ h0
    have := (hs.1 (m.cell x)).1
    rw [h0] at this
    exact absurd this (by decide)
  · refine ⟨?_, ?_, ?_⟩ <;> decide +kernel

end Verif.Props
