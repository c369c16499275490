import Verif.Props.GenerateReach

/-!
# C68: generating from a minimal puzzle
-/
namespace Verif.Props

open Verif Sudoku Generator

/-- **C68**: whatever the random order, `generate_with_symmetry_from` returns a uniquely solvable sudoku as is exactly if it
is minimal: if no set of corresponding cells with clues can be emptied without losing uniqueness. -/
theorem C68_fixed (g : Grid) (hw : WellFormed g) (hu : UniquelySolvable g) (s : Symmetry) (order : List Nat)
    (ho : order.Perm (List.range 81)) (fuel : Nat) (hf : 800 ≤ fuel) :
    generateWithSymmetryFrom fuel g s order = .ok g ↔ Minimal s g := by
  obtain ⟨p, h1, -⟩ := C30_generate_from g hw hu s order ho fuel hf
  obtain ⟨hsub, hup, hmin, hwhole⟩ := (C61_generate_from g hw hu s fuel hf p).1 ⟨order, ho, h1⟩
  rw [h1]
  constructor
  · intro h
    cases h
    exact hmin
  · intro hg
    congr 1
    by_contra hne
    obtain ⟨x, hx⟩ : ∃ x : Fin 81, p[x] ≠ g[x] := by
      by_contra h
      exact hne (grid_ext fun y => not_not.mp fun hy => h ⟨y, hy⟩)
    have hx0 : p[x] = 0 := (hsub x).resolve_right hx
    have hsub' : SubClues p (without g (classOf s x)) := by
      intro y
      rw [without_get]
      split
      · rename_i hy
        by_contra h
        push Not at h
        refine hx (hwhole y x ?_ h.1)
        rw [linked_class]
        exact class_symm s hy
      · exact hsub y
    obtain ⟨t, ht, -⟩ := hu
    obtain ⟨t', -, hut'⟩ := hup
    refine hg.without x (fun h => hx (hx0.trans h.symm)) ⟨t, ?_, fun u hu => ?_⟩
    · refine SubClues.isSolution (fun y => ?_) ht
      rw [without_get]
      split
      · exact .inl rfl
      · exact .inr rfl
    · rw [hut' u (hsub'.isSolution hu), hut' t (hsub.isSolution ht)]

/-- **C68**: so generating again from a generated puzzle with the same symmetry changes nothing, in whatever order. -/
theorem C68_again (g : Grid) (hw : WellFormed g) (hu : UniquelySolvable g) (s : Symmetry) (order order' : List Nat)
    (ho : order.Perm (List.range 81)) (ho' : order'.Perm (List.range 81)) (fuel fuel' : Nat) (hf : 800 ≤ fuel)
    (hf' : 800 ≤ fuel') (p : Grid) (hp : generateWithSymmetryFrom fuel g s order = .ok p) :
    generateWithSymmetryFrom fuel' p s order' = .ok p := by
  obtain ⟨hsub, hup, hmin, -⟩ := (C61_generate_from g hw hu s fuel hf p).1 ⟨order, ho, hp⟩
  have hwp : WellFormed p := by
    intro x
    rcases hsub x with h | h
    · rw [h]; decide
    · rw [h]; exact hw x
  exact (C68_fixed p hwp hup s order' ho' fuel' hf').2 hmin

/-- A complete grid is uniquely solvable and never returned as is, a puzzle generated from it always. -/
example : WellFormed Ex.solved ∧ UniquelySolvable Ex.solved ∧
    ∃ p, generateWithSymmetryFrom 800 Ex.solved .verticalMirror (List.range 81) = .ok p ∧ p ≠ Ex.solved ∧
      generateWithSymmetryFrom 800 p .verticalMirror (List.range 81).reverse = .ok p := by
  have hw : WellFormed Ex.solved := by decide +kernel
  have hs : Solved Ex.solved := by decide +kernel
  have hext : Extends Ex.solved Ex.solved := fun _ _ => rfl
  have hfull : ∀ c : Fin 81, Ex.solved[c] ≠ 0 := by decide +kernel
  have hu : UniquelySolvable Ex.solved :=
    ⟨Ex.solved, ⟨hs, hext⟩, fun u hu => grid_ext fun c => hu.2 c (hfull c)⟩
  obtain ⟨p, h1, -⟩ := C30_generate_from Ex.solved hw hu .verticalMirror (List.range 81) (List.Perm.refl _) 800 (Nat.le_refl _)
  refine ⟨hw, hu, p, h1, ?_, C68_again Ex.solved hw hu .verticalMirror _ _ (List.Perm.refl _) (List.reverse_perm _) 800 800
    (Nat.le_refl _) (Nat.le_refl _) p h1⟩
  rintro rfl
  have hmin := (C68_fixed Ex.solved hw hu .verticalMirror _ (List.Perm.refl _) 800 (Nat.le_refl _)).1 h1
  have hw' : WellFormed (without Ex.solved (classOf .verticalMirror 4)) := by decide +kernel
  obtain ⟨b, e1, e2⟩ := C05_is_uniquely_solvable _ hw' 800 (Nat.le_refl _)
  have e3 : isUniquelySolvable 800 (without Ex.solved (classOf .verticalMirror 4)) = .ok true := by decide +kernel
  rw [e3] at e1
  cases e1
  exact hmin.without 4 (hfull 4) (e2.1 rfl)

end Verif.Props
