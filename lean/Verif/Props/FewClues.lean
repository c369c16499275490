import Verif.Props.Solver
import Verif.Proofs.Equivalence
import Mathlib.Data.Finset.Card
import Mathlib.Data.Fintype.Card

/-!
# C06: sudokus with few clues
-/
namespace Verif.Props

open Verif Sudoku

/-- A transformation that keeps the clues of a uniquely solvable sudoku keeps its solution. -/
theorem C06_kept {g t : Grid} (T : Sym) (hT : act T g = g) (ht : IsSolution g t)
    (hu : ∀ t', IsSolution g t' → t' = t) : act T t = t := by
  refine hu _ ?_
  have := (isSolution_act T g t).2 ht
  rwa [hT] at this

/-- Two digits are missing. -/
def TwoDigitsMissing (g : Grid) : Prop :=
  ∃ a b : UInt8, a ≠ b ∧ (1 ≤ a ∧ a ≤ 9) ∧ (1 ≤ b ∧ b ≤ 9) ∧ (∀ c : Fin 81, g[c] ≠ a) ∧ ∀ c : Fin 81, g[c] ≠ b

/-- Two rows of a band are empty. -/
def TwoRowsEmpty (g : Grid) : Prop :=
  ∃ r r' : Fin 9, r ≠ r' ∧ r.val / 3 = r'.val / 3 ∧ ∀ c : Fin 81, rowOf c = r ∨ rowOf c = r' → g[c] = 0

/-- Two columns of a stack are empty. -/
def TwoColsEmpty (g : Grid) : Prop :=
  ∃ k k' : Fin 9, k ≠ k' ∧ k.val / 3 = k'.val / 3 ∧ ∀ c : Fin 81, colOf c = k ∨ colOf c = k' → g[c] = 0

theorem twoDigitsMissing_of_clues {g : Grid} (h : clueCount g ≤ 7) : TwoDigitsMissing g := by
  let D : Finset UInt8 := (Finset.range 9).image (fun i => UInt8.ofNat (i + 1))
  have hD : D.card = 9 := by decide
  have hDr : ∀ a ∈ D, 1 ≤ a ∧ a ≤ 9 := by decide
  let S : Finset UInt8 := ((Finset.univ : Finset (Fin 81)).filter (fun c => g[c] ≠ 0)).image (fun c => g[c])
  have hS : S.card ≤ 7 := by
    refine le_trans Finset.card_image_le (le_trans (le_of_eq ?_) h)
    unfold clueCount
    rw [List.countP_eq_length_filter, Finset.card_def, Finset.filter_val, Fin.univ_def]
    simp
  have h2 : 1 < (D \ S).card := by
    have := Finset.le_card_sdiff S D
    omega
  obtain ⟨a, ha, b, hb, hab⟩ := Finset.one_lt_card.1 h2
  have key : ∀ a ∈ D \ S, (1 ≤ a ∧ a ≤ 9) ∧ ∀ c : Fin 81, g[c] ≠ a := by
    intro a ha
    obtain ⟨h1, h3⟩ := Finset.mem_sdiff.1 ha
    refine ⟨hDr a h1, fun c e => h3 ?_⟩
    refine Finset.mem_image.2 ⟨c, Finset.mem_filter.2 ⟨Finset.mem_univ _, ?_⟩, e⟩
    rw [e]
    intro h0
    have := (hDr a h1).1
    rw [h0] at this
    exact absurd this (by decide)
  exact ⟨a, b, hab, (key a ha).1, (key b hb).1, (key a ha).2, (key b hb).2⟩

theorem keepsChutes_one : KeepsChutes 1 := fun _ _ h => h

theorem keepsChutes_swap {r r' : Fin 9} (h : r.val / 3 = r'.val / 3) : KeepsChutes (Equiv.swap r r') := by
  have key : ∀ i : Fin 9, (Equiv.swap r r' i).val / 3 = i.val / 3 := by
    intro i
    rw [Equiv.swap_apply_def]
    split
    · rename_i e; rw [e]; exact h.symm
    · split
      · rename_i e; rw [e]; exact h
      · rfl
  intro i j hij
  rw [key, key, hij]

/-- Exchange two rows of a band. -/
def swapRows (r r' : Fin 9) (h : r.val / 3 = r'.val / 3) : Sym :=
  ⟨false, Equiv.swap r r', 1, 1, keepsChutes_swap h, keepsChutes_one⟩

/-- Exchange two columns of a stack. -/
def swapCols (r r' : Fin 9) (h : r.val / 3 = r'.val / 3) : Sym :=
  ⟨false, 1, Equiv.swap r r', 1, keepsChutes_one, keepsChutes_swap h⟩

theorem swapRows_rc (r r' : Fin 9) (h : r.val / 3 = r'.val / 3) (g : Grid) (i c : Fin 9) :
    cellRC (act (swapRows r r' h) g) i c = cellRC g (Equiv.swap r r' i) c := by
  rw [act_rc]
  simp only [swapRows, relabel_one, Bool.false_eq_true, if_false, Equiv.Perm.one_apply]

theorem swapCols_rc (r r' : Fin 9) (h : r.val / 3 = r'.val / 3) (g : Grid) (i c : Fin 9) :
    cellRC (act (swapCols r r' h) g) i c = cellRC g i (Equiv.swap r r' c) := by
  rw [act_rc]
  simp only [swapCols, relabel_one, Bool.false_eq_true, if_false, Equiv.Perm.one_apply]

theorem cellRC_ne {t : Grid} (ht : Solved t) {r c r' c' : Fin 9} (h : (r, c) ≠ (r', c')) (hs : r = r' ∨ c = c') :
    cellRC t r c ≠ cellRC t r' c' := by
  have h1 : (⟨9 * r.val + c.val, by omega⟩ : Fin 81) ≠ ⟨9 * r'.val + c'.val, by omega⟩ := by
    intro e
    have := congrArg Fin.val e
    simp only at this
    apply h
    have a : r = r' := by ext; omega
    have b : c = c' := by ext; omega
    rw [a, b]
  refine ht.2 _ _ h1 ?_
  unfold SameHouse rowOf colOf
  simp only [div9, mod9]
  rcases hs with e | e
  · left; rw [e]
  · right; left; rw [e]

theorem swapRows_kept {g : Grid} {r r' : Fin 9} (h : r.val / 3 = r'.val / 3)
    (hg : ∀ c : Fin 81, rowOf c = r ∨ rowOf c = r' → g[c] = 0) : act (swapRows r r' h) g = g := by
  have e : ∀ i c : Fin 9, i = r ∨ i = r' → cellRC g i c = 0 := by
    intro i c hi
    refine hg ⟨9 * i.val + c.val, by omega⟩ ?_
    unfold rowOf
    simp only [div9]
    rcases hi with rfl | rfl <;> simp
  apply grid_ext_rc
  intro i c
  rw [swapRows_rc, Equiv.swap_apply_def]
  split
  · rename_i hi; rw [e r' c (Or.inr rfl), e i c (Or.inl hi)]
  · split
    · rename_i hi; rw [e r c (Or.inl rfl), e i c (Or.inr hi)]
    · rfl

theorem swapCols_kept {g : Grid} {r r' : Fin 9} (h : r.val / 3 = r'.val / 3)
    (hg : ∀ c : Fin 81, colOf c = r ∨ colOf c = r' → g[c] = 0) : act (swapCols r r' h) g = g := by
  have e : ∀ i c : Fin 9, c = r ∨ c = r' → cellRC g i c = 0 := by
    intro i c hi
    refine hg ⟨9 * i.val + c.val, by omega⟩ ?_
    unfold colOf
    simp only [mod9]
    rcases hi with rfl | rfl <;> simp
  apply grid_ext_rc
  intro i c
  rw [swapCols_rc, Equiv.swap_apply_def]
  split
  · rename_i hi; rw [e i r' (Or.inr rfl), e i c (Or.inl hi)]
  · split
    · rename_i hi; rw [e i r (Or.inl rfl), e i c (Or.inr hi)]
    · rfl

/-- C06: sudokus with at most seven clues, or with only seven different digits, or with two empty rows in a band or two
empty columns in a stack are never uniquely solvable. -/
theorem C06_few_clues (g : Grid)
    (h : clueCount g ≤ 7 ∨ TwoDigitsMissing g ∨ TwoRowsEmpty g ∨ TwoColsEmpty g) : ¬ UniquelySolvable g := by
  have digits : TwoDigitsMissing g → ¬ UniquelySolvable g := by
    rintro ⟨a, b, hab, ha, hb, h1, h2⟩
    exact not_unique_of_missing hab ha hb h1 h2
  rcases h with h | h | ⟨r, r', hne, hb, he⟩ | ⟨r, r', hne, hb, he⟩
  · exact digits (twoDigitsMissing_of_clues h)
  · exact digits h
  · rintro ⟨t, ht, hu⟩
    have hk := C06_kept _ (swapRows_kept hb he) ht hu
    have := swapRows_rc r r' hb t r 0
    rw [hk, Equiv.swap_apply_left] at this
    exact cellRC_ne ht.1 (by simpa using hne) (Or.inr rfl) this
  · rintro ⟨t, ht, hu⟩
    have hk := C06_kept _ (swapCols_kept hb he) ht hu
    have := swapCols_rc r r' hb t 0 r
    rw [hk, Equiv.swap_apply_left] at this
    exact cellRC_ne ht.1 (by simpa using hne) (Or.inl rfl) this

/-- C06 (partial): `solution` returns `Some(t)` exactly when `t` is the only solution, except possibly for sudokus with
8 to 16 clues that have at least eight different digits, at most one empty row in each band and at most one empty
column in each stack.  Missing for these: `SeventeenClues`. -/
theorem C06_gap_partial (g : Grid) (hg : WellFormed g) (fuel : Nat) (hf : 800 ≤ fuel)
    (h : 17 ≤ clueCount g ∨ clueCount g ≤ 7 ∨ TwoDigitsMissing g ∨ TwoRowsEmpty g ∨ TwoColsEmpty g) :
    ∃ r : Option Grid, solution fuel g = .ok r ∧
      ∀ t, r = some t ↔ IsSolution g t ∧ ∀ t', IsSolution g t' → t' = t := by
  obtain ⟨r, h1, h2⟩ := solution_spec g hg fuel hf
  refine ⟨r, h1, fun t => ?_⟩
  rw [h2]
  refine and_iff_right_of_imp fun ht => ?_
  rcases h with h | h
  · exact h
  · exact absurd ⟨t, ht⟩ (C06_few_clues g h)

/-- A sudoku with 16 clues and two empty rows in a band. -/
def sixteen : Grid := Vector.ofFn (fun i => if 38 ≤ i.val ∧ i.val < 54 then Ex.solved[i] else 0)

/-- Non-vacuity: the sudoku has the solution `Ex.solved`, and `solution` rightly gives none. -/
example : WellFormed sixteen ∧ clueCount sixteen = 16 ∧ TwoRowsEmpty sixteen ∧ IsSolution sixteen Ex.solved ∧
    solution 800 sixteen = .ok none :=
  ⟨by decide +kernel, by decide +kernel, ⟨0, 1, by decide, by decide, by decide +kernel⟩, by decide +kernel,
    by decide +kernel⟩

/-- Non-vacuity of `C06_kept`: exchanging the two empty rows keeps the clues. -/
example : act (swapRows 0 1 (by decide)) sixteen = sixteen ∧ act (swapRows 0 1 (by decide)) Ex.solved ≠ Ex.solved := by
  decide +kernel

end Verif.Props
