import Verif.Proofs.Transform
import Verif.Props.Board
import Verif.Props.Solver

/-!
# Property theorems about shuffling: C22, C23

`shuffle d g` is `g.shuffled()` when the random number generator delivers the numbers `d`: one number
below `9!`, one bool, eight numbers below 6.
-/
namespace Verif.Props

open Verif Sudoku Canon

theorem clueCount_act (T : Sym) (g : Grid) : clueCount (act T g) = clueCount g := by
  have key : ∀ s : Grid, clueCount s = (Finset.univ.filter (fun p : Fin 9 × Fin 9 => cellRC s p.1 p.2 ≠ 0)).card := by
    intro s
    unfold clueCount
    rw [List.countP_eq_length_filter, ← List.toFinset_card_of_nodup ((List.nodup_finRange 81).filter _)]
    apply Finset.card_bij (fun (c : Fin 81) _ => ((⟨c.val / 9, by omega⟩ : Fin 9), (⟨c.val % 9, by omega⟩ : Fin 9)))
    · intro c hc
      simp only [List.mem_toFinset, List.mem_filter, decide_eq_true_eq] at hc
      simp only [Finset.mem_filter, Finset.mem_univ, true_and]
      rw [← cellRC_fin]
      exact hc.2
    · intro a _ b _ h
      simp only [Prod.mk.injEq, Fin.mk.injEq] at h
      apply Fin.ext
      omega
    · rintro ⟨r, c⟩ h
      simp only [Finset.mem_filter, Finset.mem_univ, true_and] at h
      refine ⟨⟨9 * r.val + c.val, by omega⟩, ?_, ?_⟩
      · simp only [List.mem_toFinset, List.mem_filter, decide_eq_true_eq]
        exact ⟨List.mem_finRange _, h⟩
      · simp only [div9, mod9, Fin.eta]
  rw [key, key]
  apply Finset.card_bij (fun p _ => if T.transposed then (T.cols p.2, T.rows p.1) else (T.rows p.1, T.cols p.2))
  · rintro ⟨r, c⟩ h
    simp only [Finset.mem_filter, Finset.mem_univ, true_and, act_rc, Ne, relabel_eq_zero] at h ⊢
    split at h <;> rename_i hT <;> simp only [hT, if_true] <;> exact h
  · rintro ⟨r, c⟩ _ ⟨r', c'⟩ _ h
    split at h
    · simp only [Prod.mk.injEq, EmbeddingLike.apply_eq_iff_eq] at h
      rw [h.1, h.2]
    · simp only [Prod.mk.injEq, EmbeddingLike.apply_eq_iff_eq] at h
      rw [h.1, h.2]
  · rintro ⟨r, c⟩ h
    by_cases hT : T.transposed = true
    · refine ⟨(T.rows.symm c, T.cols.symm r), ?_, ?_⟩
      · simp only [Finset.mem_filter, Finset.mem_univ, true_and, act_rc, Ne, relabel_eq_zero, hT, if_true,
          Equiv.apply_symm_apply] at h ⊢
        exact h
      · simp only [hT, if_true, Equiv.apply_symm_apply]
    · refine ⟨(T.rows.symm r, T.cols.symm c), ?_, ?_⟩
      · simp only [Finset.mem_filter, Finset.mem_univ, true_and, act_rc, Ne, relabel_eq_zero, hT, if_false,
          Equiv.apply_symm_apply] at h ⊢
        exact h
      · simp [hT]

theorem uniquelySolvable_act (T : Sym) (g : Grid) : UniquelySolvable (act T g) ↔ UniquelySolvable g := by
  constructor
  · rintro ⟨t, h1, h2⟩
    refine ⟨act T.inv t, ?_, ?_⟩
    · rw [← isSolution_act T, act_act_inv]; exact h1
    · intro t' ht'
      rw [← h2 (act T t') ((isSolution_act T g t').mpr ht'), act_inv_act]
  · rintro ⟨t, h1, h2⟩
    refine ⟨act T t, (isSolution_act T g t).mpr h1, ?_⟩
    intro t' ht'
    rw [← act_act_inv T t'] at ht' ⊢
    rw [h2 _ ((isSolution_act T g _).mp ht')]

theorem preserved_act (T : Sym) {g : Grid} (hg : WellFormed g) {fuel : Nat} (hf : 800 ≤ fuel) :
    WellFormed (act T g) ∧
      solutionSet (act T g) = act T '' solutionSet g ∧ numSolutions (act T g) = numSolutions g ∧
      clueCount (act T g) = clueCount g ∧ nClues (act T g) = nClues g ∧
      isUniquelySolvable fuel (act T g) = isUniquelySolvable fuel g ∧ isSolved (act T g) = isSolved g := by
  have hg' := wellFormed_act T hg
  refine ⟨hg', solutionSet_act T g, numSolutions_act T g, clueCount_act T g, ?_, ?_, ?_⟩
  · have h1 := (C09_cells g).2.2.2
    have h2 := (C09_cells (act T g)).2.2.2
    have h3 := clueCount_act T g
    exact UInt8.toNat_inj.mp (by omega)
  · obtain ⟨b, h1, h2⟩ := C05_is_uniquely_solvable g hg fuel hf
    obtain ⟨b', h1', h2'⟩ := C05_is_uniquely_solvable _ hg' fuel hf
    have h3 := uniquelySolvable_act T g
    have h4 : b' = b := Bool.eq_iff_iff.mpr (by rw [h2, h2', h3])
    rw [h1, h1', h4]
  · have h1 := C08_is_solved g
    have h2 := C08_is_solved (act T g)
    have h3 := solved_act T g
    exact Bool.eq_iff_iff.mpr (by rw [h1, h2, h3])

/-- C22.  Whatever random numbers are drawn, shuffling succeeds and its result is a transformed copy of the input
(rows, columns and digits permuted, bands and stacks respected, possibly transposed).  The solutions of the result
are the transformed solutions of the input, so there are equally many; the number of clues is the same; and
`is_uniquely_solvable`, `is_solved` and `n_clues` give the same answers as before. -/
theorem C22_shuffle (g : Grid) (hg : WellFormed g) (d : Draws) (fuel : Nat) (hf : 800 ≤ fuel) :
    ∃ (g' : Grid) (T : Sym), shuffle d g = .ok g' ∧ g' = act T g ∧ WellFormed g' ∧
      solutionSet g' = act T '' solutionSet g ∧ numSolutions g' = numSolutions g ∧
      clueCount g' = clueCount g ∧ nClues g' = nClues g ∧
      isUniquelySolvable fuel g' = isUniquelySolvable fuel g ∧ isSolved g' = isSolved g :=
  ⟨act d.choices.sym g, d.choices.sym, shuffle_eq d g hg, rfl, preserved_act d.choices.sym hg hf⟩

/-- Non-vacuity: a draw that really moves things, on the example puzzle; the result differs from the input. -/
example : WellFormed Ex.puzzle ∧ ∃ g', shuffle ⟨123456, true, 3, 4, (1, 2, 5), (0, 3, 4)⟩ Ex.puzzle = .ok g' ∧
    g' ≠ Ex.puzzle := by
  refine ⟨by decide +kernel, ?_⟩
  have h : (match shuffle ⟨123456, true, 3, 4, (1, 2, 5), (0, 3, 4)⟩ Ex.puzzle with
    | .ok g' => decide (g' ≠ Ex.puzzle) | _ => false) = true := by decide +kernel
  split at h
  · rename_i g' hg'
    exact ⟨g', hg', of_decide_eq_true h⟩
  · exact absurd h (by simp)

/-- C23.  The draws and the transformations correspond one to one: every transformation is the effect of exactly
one draw (so with uniform numbers every transformation is equally likely). -/
theorem C23_shuffle_bijective :
    ∃ F : Draws ≃ Sym, ∀ (d : Draws) (g : Grid), WellFormed g → shuffle d g = .ok (act (F d) g) :=
  ⟨Equiv.ofBijective _ draws_sym_bijective, fun d g hg => shuffle_eq d g hg⟩

/-- C23.  There are `2 * 9! * 6^8 = 1218998108160` transformations, as documented. -/
theorem C23_number_of_transformations : Nat.card Sym = 2 * Nat.factorial 9 * (Nat.factorial 3) ^ 8 := by
  rw [card_sym]; decide

/-- C23.  Different transformations really are different: some board with at most 81 entries tells them apart. -/
theorem C23_transformations_differ (T U : Sym) (h : ∀ g : Grid, WellFormed g → act T g = act U g) : T = U := by
  -- a board with a single entry `1` at row `r`, column `c`
  have hdig : T.digits = U.digits := by
    ext e
    have hv : relabel T.digits (UInt8.ofNat (e.val + 1)) = relabel U.digits (UInt8.ofNat (e.val + 1)) := by
      have hwf : WellFormed (Vector.replicate 81 (UInt8.ofNat (e.val + 1)) : Grid) := by
        intro i
        show (Vector.replicate 81 (UInt8.ofNat (e.val + 1)))[i.val] ≤ 9
        rw [Vector.getElem_replicate]
        exact (ofNat_digit_range e).2
      have hcell : ∀ r c, cellRC (Vector.replicate 81 (UInt8.ofNat (e.val + 1)) : Grid) r c = UInt8.ofNat (e.val + 1) := by
        intro r c
        unfold cellRC
        rw [Vector.getElem_replicate]
      have := congrArg (fun k : Grid => cellRC k 0 0) (h _ hwf)
      simp only [act_rc, hcell, ite_self] at this
      exact this
    rw [relabel_of_mem, relabel_of_mem] at hv
    have := congrArg UInt8.toNat hv
    rw [UInt8.toNat_ofNat', UInt8.toNat_ofNat'] at this
    omega
  have single : ∀ r0 c0 : Fin 9, ∀ r c : Fin 9,
      ((if T.transposed then (T.cols c, T.rows r) else (T.rows r, T.cols c)) = (r0, c0) ↔
        (if U.transposed then (U.cols c, U.rows r) else (U.rows r, U.cols c)) = (r0, c0)) := by
    intro r0 c0 r c
    let g : Grid := Vector.ofFn (fun i : Fin 81 => if i.val = 9 * r0.val + c0.val then 1 else 0)
    have hgrc : ∀ r c, cellRC g r c = if (r, c) = (r0, c0) then 1 else 0 := by
      intro r c
      rw [cellRC_ofFn]
      simp only [Prod.mk.injEq, Fin.ext_iff]
      by_cases hh : 9 * r.val + c.val = 9 * r0.val + c0.val
      · rw [if_pos hh, if_pos (by omega)]
      · rw [if_neg hh, if_neg (by omega)]
    have hwf : WellFormed g := by
      rw [wellFormed_iff_rc]
      intro r c
      rw [hgrc]
      split <;> decide
    have := congrArg (fun k : Grid => cellRC k r c) (h g hwf)
    simp only [act_rc, hdig] at this
    have this := relabel_injective _ this
    have e1 : (if T.transposed then cellRC g (T.cols c) (T.rows r) else cellRC g (T.rows r) (T.cols c)) =
        if (if T.transposed then (T.cols c, T.rows r) else (T.rows r, T.cols c)) = (r0, c0) then 1 else 0 := by
      split <;> exact hgrc _ _
    have e2 : (if U.transposed then cellRC g (U.cols c) (U.rows r) else cellRC g (U.rows r) (U.cols c)) =
        if (if U.transposed then (U.cols c, U.rows r) else (U.rows r, U.cols c)) = (r0, c0) then 1 else 0 := by
      split <;> exact hgrc _ _
    rw [e1, e2] at this
    have hb : ∀ p q : Prop, [Decidable p] → [Decidable q] →
        ((if p then (1 : UInt8) else 0) = if q then 1 else 0) → (p ↔ q) := by
      intro p q _ _ hpq
      by_cases hp : p <;> by_cases hq : q <;> simp_all
    exact hb _ _ this
  have same : ∀ r c : Fin 9, (if T.transposed then (T.cols c, T.rows r) else (T.rows r, T.cols c)) =
      if U.transposed then (U.cols c, U.rows r) else (U.rows r, U.cols c) := by
    intro r c
    exact ((single _ _ r c).mp rfl).symm
  rcases Bool.eq_false_or_eq_true T.transposed with hT | hT <;>
    rcases Bool.eq_false_or_eq_true U.transposed with hU | hU
  · simp only [hT, hU, if_true, Prod.mk.injEq] at same
    exact Sym.ext' (hT.trans hU.symm) (Equiv.ext fun r => (same r 0).2) (Equiv.ext fun c => (same 0 c).1) hdig
  · simp only [hT, hU, if_true, Prod.mk.injEq, Bool.false_eq_true, if_false] at same
    have h1 := (same 0 0).1
    have h2 := (same 0 1).1
    exact absurd (T.cols.injective (h1.trans h2.symm)) (by decide)
  · simp only [hT, hU, if_true, Prod.mk.injEq, Bool.false_eq_true, if_false] at same
    have h1 := (same 0 0).1
    have h2 := (same 0 1).1
    exact absurd (U.cols.injective (h1.symm.trans h2)) (by decide)
  · simp only [hT, hU, Prod.mk.injEq, Bool.false_eq_true, if_false] at same
    exact Sym.ext' (hT.trans hU.symm) (Equiv.ext fun r => (same r 0).1) (Equiv.ext fun c => (same 0 c).2) hdig

/-- C23, the digits alone: for every number below `9!` the relabelling is a permutation of `1..9`, different numbers
give different ones. -/
theorem C23_random_digits :
    ∃ F : Fin 362880 ≃ Equiv.Perm (Fin 9), ∀ p : Fin 362880, ∃ v, randomDigits p.val = .ok v ∧
      ∀ i : Fin 9, v[i].toNat = (F p i).val + 1 := by
  refine ⟨Equiv.ofBijective _ fy_bijective, fun p => ⟨_, randomDigits_eq p.val, fun i => ?_⟩⟩
  show (digitVec _)[i.val].toNat = _
  unfold digitVec
  rw [Vector.getElem_ofFn, UInt8.toNat_ofNat']
  simp only [Fin.eta, Equiv.ofBijective_apply]
  omega

/-- Non-vacuity: the number 0 gives a permutation that moves digits. -/
example : randomDigits 0 = .ok #v[2, 3, 4, 5, 6, 7, 8, 9, 1] := by decide +kernel

end Verif.Props
