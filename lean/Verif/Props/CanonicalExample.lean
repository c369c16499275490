import Verif.Props.Canonical

/-!
# Non-vacuity of `C29_rigid_partial`

`Ex.solved` has only the trivial automorphism: the kernel runs the modelled `find_canonical_sudoku` on it.  So the
hypotheses of `C29_rigid_partial` are met by `Ex.solved` and by `Ex.solved` with its first cell emptied.
-/
namespace Verif.Props

open Verif Sudoku Canon

deriving instance DecidableEq for MinBandTransformation
deriving instance DecidableEq for BandState

/-- The search state after the first band; the other five bands do not change it. -/
def bandState : BandState where
  minimum := #v[7, 1, 8, 9, 2, 3, 6, 6, 8, 9, 3, 2, 7, 1, 4, 5]
  transformations := [{ band := 0, transposed := false, rowPermutation := ⟨2, 0⟩, stackPermutation := ⟨2, 1⟩,
                        colPermutations := ⟨⟨1, 1⟩, ⟨0, 1⟩, ⟨0, 0⟩⟩, digitRemapping := #v[5, 4, 2, 3, 6, 9, 8, 7, 1] }]

/-- The transposed grid. -/
def transposed : Grid := ⟨(List.ofFn (fun c : Fin 81 => Ex.solved[(9 * (c.val % 9) + c.val / 9 : Nat)]'(by omega))).toArray,
  by simp⟩

theorem transposed_eq : transpose Ex.solved = .ok transposed := by decide +kernel
theorem step0 : findMinlexBand Ex.solved 0 false (BandState.mk (Vector.replicate 16 9) []) = .ok bandState := by
  decide +kernel
theorem step1 : findMinlexBand Ex.solved 1 false bandState = .ok bandState := by decide +kernel
theorem step2 : findMinlexBand Ex.solved 2 false bandState = .ok bandState := by decide +kernel
theorem step3 : findMinlexBand transposed 0 true bandState = .ok bandState := by decide +kernel
theorem step4 : findMinlexBand transposed 1 true bandState = .ok bandState := by decide +kernel
theorem step5 : findMinlexBand transposed 2 true bandState = .ok bandState := by decide +kernel

theorem findCanonical_of {g gt : Grid} {st : BandState} (ht : transpose g = .ok gt)
    (h0 : findMinlexBand g 0 false (BandState.mk (Vector.replicate 16 9) []) = .ok st)
    (h1 : findMinlexBand g 1 false st = .ok st) (h2 : findMinlexBand g 2 false st = .ok st)
    (h3 : findMinlexBand gt 0 true st = .ok st) (h4 : findMinlexBand gt 1 true st = .ok st)
    (h5 : findMinlexBand gt 2 true st = .ok st) {r : Grid × Transformation}
    (hr : st.transformations.mapM (findMinimalForBand g) = .ok [r]) : findCanonical g = .ok (r.1, r.2, 1) := by
  unfold findCanonical
  rw [show List.range 3 = [0, 1, 2] from rfl]
  simp only [List.foldlM_cons, List.foldlM_nil, Res.pure_eq, Res.ok_bind, h0, h1, h2, h3, h4, h5, ht, if_true,
    Bool.false_eq_true, if_false, hr]
  rfl

theorem minimal_example : ∃ r, bandState.transformations.mapM (findMinimalForBand Ex.solved) = .ok [r] := by
  have h : (match bandState.transformations.mapM (findMinimalForBand Ex.solved) with
      | .ok [_] => true | _ => false) = true := by decide +kernel
  generalize bandState.transformations.mapM (findMinimalForBand Ex.solved) = x at h ⊢
  match x, h with
  | .ok [r], _ => exact ⟨r, rfl⟩

theorem findCanonical_example : ∃ q T, findCanonical Ex.solved = .ok (q, T, 1) := by
  obtain ⟨r, hr⟩ := minimal_example
  exact ⟨_, _, findCanonical_of transposed_eq step0 step1 step2 step3 step4 step5 hr⟩

theorem ncard_example : Set.ncard {T : Sym | act T Ex.solved = Ex.solved} = 1 := by
  have hs : Solved Ex.solved := by decide +kernel
  obtain ⟨k, n, hk, _, hn⟩ := findCanonical_eq hs
  obtain ⟨q, T, h⟩ := findCanonical_example
  rw [hk] at h
  simp only [Res.ok.injEq, Prod.mk.injEq] at h
  rw [← ncard_fixing _ k.sym, ← hn]
  exact h.2.2

example : ∃ p p' q q' n', WellFormed p ∧ WellFormed p' ∧ ¬ Solved p ∧ canonicalized 800 p = .ok (some (q, 1)) ∧
    canonicalized 800 p' = .ok (some (q', n')) := by
  have hs : Solved Ex.solved := by decide +kernel
  have hp := one_missing_wellFormed hs 0
  obtain ⟨h1, hu⟩ := unique_of_one_missing hs 0
  obtain ⟨k, n, hk, _, hn⟩ := canonicalized_of_solution hp h1 hu (by decide +kernel)
  rw [ncard_example] at hn
  subst hn
  obtain ⟨hk1, hk2⟩ := hk 800 (Nat.le_refl _)
  exact ⟨_, _, _, _, _, hp, wellFormed_of_solved hs, by decide +kernel, hk1, hk2⟩

end Verif.Props
