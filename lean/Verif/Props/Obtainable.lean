import Verif.Spec.Obtainable
import Verif.Proofs.GridRange
import Verif.Props.Block
import Verif.Props.Line
import Verif.Props.Strategy
import Verif.Props.Canonical
import Verif.Props.Generator

/-!
# C82: every sudoku that the library returns is well-formed
-/
namespace Verif.Props

open Verif Text Sudoku Strat Canon Generator

private theorem cellValue_le {c : Char} {v : UInt8} (h : cellValue c = some v) : v ≤ 9 := by
  unfold cellValue at h
  split at h
  · cases h
    decide
  · split at h
    · rename_i h1
      cases h
      have h2 : c.toNat ≤ '9'.toNat := h1.2
      have h3 : '9'.toNat = 57 := rfl
      have h4 : '0'.toNat = 48 := rfl
      rw [UInt8.le_iff_toNat_le, UInt8.toNat_ofNat']
      show (c.toNat - '0'.toNat) % 256 ≤ 9
      omega
    · cases h

private theorem readsAs_wellFormed {cs : List Char} {g : Grid} (h : ReadsAs cs g) : WellFormed g := by
  intro c
  have h1 := h c
  cases hc : cs[c.val]? with
  | none => rw [hc] at h1; cases h1
  | some ch => rw [hc] at h1; exact cellValue_le h1

private theorem rows_wellFormed {g : Grid} (h : ∀ vs ∈ List.ofFn (gridRow g), ∀ v ∈ vs, v ≤ 9) : WellFormed g := by
  intro c
  refine h (gridRow g ⟨c.val / 9, by omega⟩) (List.mem_ofFn.mpr ⟨_, rfl⟩) _ (List.mem_ofFn.mpr ⟨⟨c.val % 9, by omega⟩, ?_⟩)
  have e : 9 * (c.val / 9) + c.val % 9 = c.val := by omega
  simp only [e]
  rfl

private theorem matches_le {t : List Bool} {b : List Char} {vs : List UInt8} (h : Matches t b vs) : ∀ v ∈ vs, v ≤ 9 := by
  induction h with
  | nil => simp
  | cell hv _ ih => exact List.forall_mem_cons.mpr ⟨cellValue_le hv, ih⟩
  | bar _ ih => exact ih

private theorem block_le {d plus : Bool} {items : List Bool} {ls : List (List Char)} {vss : List (List UInt8)}
    (h : BlockMatches d plus items ls vss) : ∀ vs ∈ vss, ∀ v ∈ vs, v ≤ 9 := by
  induction h with
  | nil => simp
  | row hr _ ih =>
    obtain ⟨body, tail, -, hm, -⟩ := hr
    exact List.forall_mem_cons.mpr ⟨matches_le hm, ih⟩
  | sep _ _ ih => exact ih

private theorem digit_le (d : Digit) : d.get ≤ 9 := by
  revert d
  decide

private theorem entries_wellFormed {g : Grid} (h : ∀ c : Fin 81, g[c] = 0 ∨ ∃ d : Digit, g[c] = d.get) : WellFormed g := by
  intro c
  rcases h c with h | ⟨d, h⟩
  · rw [h]
    decide
  · rw [h]
    exact digit_le d

private theorem reaches_held {looked : Bool} {s : Solver} {g : Grid} {X : Fin 81 → Digit → Prop} (h : Reaches looked s g X) :
    Held (fun c => g[c] ≠ 0) s := by
  have hi := h.inv.1
  refine ⟨fun c => ?_, fun c hc => ?_⟩
  · by_cases h0 : s.grid[c] = 0
    · exact Or.inl h0
    · exact Or.inr (hi.w.range c h0)
  · obtain ⟨d, hd⟩ := hi.wf c hc
    exact Or.inr ⟨_, (hi.ded c d).mpr hd, rfl⟩

/-- **C82**: every sudoku returned by a public function has entries `0..9` only, and every such grid can be obtained:
the public functions make exactly the well-formed sudokus. -/
theorem C82_obtainable (g : Grid) : Obtainable g ↔ WellFormed g := by
  refine ⟨fun h => ?_, fun h => .fromBytes ((C10_from_bytes g g).mpr ⟨h, rfl⟩)⟩
  induction h with
  | @fromBytes b g h =>
    obtain ⟨h1, rfl⟩ := (C10_from_bytes b g).mp h
    exact h1
  | @fromBytesSlice b g h =>
    rcases C10_from_bytes_slice b with ⟨-, h1⟩ | ⟨-, -, h1⟩ | ⟨g', -, -, h2, h1⟩
    · rw [h1] at h; cases h
    · rw [h1] at h; cases h
    · rw [h1] at h
      cases h
      exact ((C10_from_bytes _ _).mp h2).1
  | @fromStrLine s g h =>
    obtain ⟨cells, rest, -, -, h1, -⟩ := (C12_from_str_line s g).mp h
    exact readsAs_wellFormed h1
  | @fromStrBlock s g h =>
    obtain ⟨d, plus, block, rest, -, h1, -⟩ := (C16_from_str_block s g).mp h
    exact rows_wellFormed (block_le h1)
  | @fromStrBlockPermissive s g h =>
    obtain ⟨h1, h2⟩ := C18_from_str_block_permissive s
    by_cases h9 : 9 ≤ (permissiveRows s).length
    · obtain ⟨g', h3, h4⟩ := h1 h9
      rw [h3] at h
      cases h
      refine rows_wellFormed fun vs hvs v hv => ?_
      rw [h4] at hvs
      obtain ⟨l, -, hl⟩ := List.mem_filterMap.mp (List.mem_of_mem_take hvs)
      split at hl
      · cases hl
        obtain ⟨c, -, hc⟩ := List.mem_filterMap.mp (List.mem_of_mem_take hv)
        exact cellValue_le hc
      · cases hl
    · rw [h2 (by omega)] at h
      cases h
  | @deserialize hr d g h =>
    cases hr with
    | true =>
      cases d with
      | str s =>
        obtain ⟨cells, rest, -, -, h1, -⟩ := (C12_from_str_line s g).mp ((C20_visitors [] s g).2.2.1.mp h)
        exact readsAs_wellFormed h1
      | bytes b => cases h
    | false =>
      cases d with
      | str s => cases h
      | bytes b => exact ((C20_visitors b [] g).1.mp h).2
  | @solutionsUpTo fuel limit g t L _ hf hL ht ih =>
    obtain ⟨L', h1, -, h2, -⟩ := C01_solutions_up_to g ih limit fuel hf
    rw [hL] at h1
    cases h1
    exact solved_isWellFormed (h2 t ht).1
  | @solutionsUpToBuffer fuel limit n g t target target' _ _ hf h ht ih ih' =>
    obtain ⟨L, t', h1, h2, h3, h4⟩ := C03_solutions_up_to_buffer g ih target limit fuel hf
    rw [h] at h2
    cases h2
    obtain ⟨i, hi, rfl⟩ := List.mem_iff_getElem.mp ht
    have h5 := h4 i (by omega)
    rw [List.getElem?_eq_getElem hi] at h5
    split at h5
    · obtain ⟨L', h6, -, h7, -⟩ := C01_solutions_up_to g ih limit fuel hf
      rw [h1] at h6
      cases h6
      exact solved_isWellFormed (h7 _ (List.mem_of_getElem? h5.symm)).1
    · exact ih' _ (List.mem_of_getElem? h5.symm)
  | @someSolution fuel g t _ hf h ih =>
    rcases C04_some_solution g ih fuel hf with ⟨h1, -⟩ | ⟨t', h1, h2⟩
    · rw [h1] at h; cases h
    · rw [h1] at h
      cases h
      exact solved_isWellFormed h2.1
  | @solution fuel g t _ hf h ih =>
    obtain ⟨r, h1, h2, -⟩ := C06_solution_partial g ih fuel hf
    rw [h1] at h
    cases h
    exact solved_isWellFormed (h2 t rfl).1.1
  | @shuffle d g g' _ h ih =>
    obtain ⟨q, T, h1, -, h2, -⟩ := C22_shuffle g ih d 800 (Nat.le_refl _)
    rw [h1] at h
    cases h
    exact h2
  | @canonicalized fuel n g q _ hf h ih =>
    obtain ⟨r, h1, -, -, -, h2⟩ := C24_canonicalized g ih fuel hf
    rw [h1] at h
    cases h
    exact (h2 q n rfl).2
  | @generateWithSymmetryFrom fuel g p s order _ hf ho h ih =>
    obtain ⟨q, h1, -, h2⟩ := C33_not_uniquely_solvable_partial g ih s order ho fuel hf
    rw [h1] at h
    cases h
    rcases h2 with rfl | ⟨h2, -⟩
    · exact ih
    · intro c
      rcases h2 c with h3 | h3
      · rw [h3]; decide
      · rw [h3]; exact ih c
  | @generateSolved fuel perm rng rng' g hf hp h =>
    obtain ⟨q, r, h1, h2, -⟩ := C35_generate_solved perm hp rng fuel hf
    rw [h1] at h
    cases h
    exact solved_isWellFormed h2
  | @generateWithSymmetry fuel s perm order rng p hf hp ho h =>
    obtain ⟨q, h1, h2, -⟩ := C36_generate_with_symmetry s perm hp rng order ho fuel hf
    rw [h1] at h
    cases h
    exact h2
  | toSudoku h => exact entries_wellFormed (reaches_held h).updateGrid.1.1
  | solve h hf hr => exact entries_wellFormed (returned_held (reaches_held h) hr).1

/-- **C82**: the sudoku returned by `solve` has a digit in every cell that had one, also for contradictory sudokus, with
any strategies, and whether or not the solver was looked at before (that it is the same digit is false in general:
`C48_overwritten_false`). -/
theorem C82_kept {looked : Bool} {s : Solver} {g : Grid} {X : Fin 81 → Digit → Prop} {fuel : Nat} {sts : List Strategy}
    {r : Grid × Deductions} (h : Reaches looked s g X) (hr : Returned fuel sts s r) (c : Fin 81) (hc : g[c] ≠ 0) :
    r.1[c] ≠ 0 := (returned_held (reaches_held h) hr).2 c hc

/-- C82: a sudoku obtained in two steps. -/
example : ∃ q, Obtainable q ∧ q ≠ Ex.puzzle := by
  have h : (match shuffle ⟨123456, true, 3, 4, (1, 2, 5), (0, 3, 4)⟩ Ex.puzzle with
    | .ok q => decide (q ≠ Ex.puzzle) | _ => false) = true := by decide +kernel
  split at h
  · rename_i q hq
    exact ⟨q, .shuffle (.fromBytes ((C10_from_bytes _ _).mpr ⟨by decide +kernel, rfl⟩)) hq, of_decide_eq_true h⟩
  · exact absurd h (by simp)

/-- C82: `solve` on a contradictory sudoku. -/
example : ∃ s r, Reaches false s Ex.contradictory (fun _ _ => False) ∧ Returned 1000 [.nakedSingles] s r ∧
    ∃ c : Fin 81, Ex.contradictory[c] ≠ 0 := by
  obtain ⟨s, r, h1, h2, -⟩ := C41_from_sudoku Ex.contradictory (by decide +kernel) (Nat.le_refl 1000) [.nakedSingles] (by simp)
  exact ⟨s, r, .sudoku (by decide +kernel) h1, h2, by decide +kernel⟩

end Verif.Props
