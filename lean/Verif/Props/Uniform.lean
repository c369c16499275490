import Mathlib.GroupTheory.Index
import Verif.Props.Canonical
import Verif.Props.Shuffle

/-!
# C79: how often shuffling gives which sudoku
-/
namespace Verif.Props

open Verif Verif.Canon

/-- The transformations are a group … -/
private abbrev symGroup : Group Sym where
  mul := Sym.after
  mul_assoc := Sym.after_assoc
  one := Sym.one
  one_mul := Sym.one_after
  mul_one := Sym.after_one
  inv := Sym.inv
  inv_mul_cancel := Sym.inv_after

attribute [local instance] symGroup

/-- … that acts on the sudokus. -/
private abbrev symAction : MulAction Sym Grid where
  smul := act
  one_smul := act_one
  mul_smul := act_after

attribute [local instance] symAction

private theorem orbit_eq (g : Grid) : MulAction.orbit Sym g = {g' | Equivalent g g'} := rfl

private theorem fixed_eq (g : Grid) : Nat.card (MulAction.stabilizer Sym g) = Set.ncard {T : Sym | act T g = g} := by
  exact Nat.card_coe_set_eq {T : Sym | act T g = g}

private theorem class_size (g : Grid) :
    Set.ncard {T : Sym | act T g = g} * Set.ncard {g' | Equivalent g g'} = Nat.card Sym := by
  rw [← fixed_eq, ← orbit_eq, ← MulAction.index_stabilizer]
  exact Subgroup.card_mul_index _

/-- **C79**: the outcomes of shuffling a sudoku are exactly the equivalent sudokus. -/
theorem C79_outcomes (g g' : Grid) (hg : WellFormed g) : (∃ d, shuffle d g = .ok g') ↔ Equivalent g g' := by
  obtain ⟨F, hF⟩ := C23_shuffle_bijective
  constructor
  · rintro ⟨d, hd⟩
    rw [hF d g hg] at hd
    exact ⟨F d, by simpa using hd⟩
  · rintro ⟨T, rfl⟩
    exact ⟨F.symm T, by rw [hF _ g hg, Equiv.apply_symm_apply]⟩

/-- **C79**: shuffling is fair: every sudoku that is equivalent to the given one comes from the same number of draws, namely
the number of transformations that map the given sudoku to itself. -/
theorem C79_fair (g g' : Grid) (hg : WellFormed g) (h : Equivalent g g') :
    Set.ncard {d | shuffle d g = .ok g'} = Set.ncard {T : Sym | act T g = g} := by
  obtain ⟨F, hF⟩ := C23_shuffle_bijective
  obtain ⟨T, rfl⟩ := h
  have e : {d | shuffle d g = .ok (act T g)} = (fun U => F.symm (T.after U)) '' {U : Sym | act U g = g} := by
    ext d
    simp only [Set.mem_ofPred_eq, Set.mem_image]
    rw [hF d g hg]
    constructor
    · intro hd
      refine ⟨T.inv.after (F d), ?_, ?_⟩
      · rw [act_after, show act (F d) g = act T g by simpa using hd, act_inv_act]
      · rw [← Sym.after_assoc, Sym.after_inv, Sym.one_after, Equiv.symm_apply_apply]
    · rintro ⟨U, hU, rfl⟩
      rw [Equiv.apply_symm_apply, act_after, hU]
  rw [e, Set.ncard_image_of_injective]
  intro U V h
  have h := F.symm.injective h
  have h : T.inv.after (T.after U) = T.inv.after (T.after V) := congrArg _ h
  rwa [← Sym.after_assoc, ← Sym.after_assoc, Sym.inv_after, Sym.one_after, Sym.one_after] at h

/-- **C79**: so the number of equivalent sudokus is that of all draws divided by the number of transformations that map the
sudoku to itself. -/
theorem C79_class_size (g : Grid) :
    Set.ncard {g' | Equivalent g g'} * Set.ncard {T : Sym | act T g = g} = 1218998108160 := by
  rw [mul_comm, class_size, C23_number_of_transformations]
  decide

/-- **C79**: for a completed grid, with the count that `canonicalized` returns: every equivalent grid comes from this number of
draws, and there are 1218998108160 divided by it of them. -/
theorem C79_solved (g q : Grid) (n : Nat) (hg : Solved g) (fuel : Nat) (hf : 800 ≤ fuel)
    (hq : canonicalized fuel g = .ok (some (q, n))) :
    (∀ g', Equivalent g g' → Set.ncard {d | shuffle d g = .ok g'} = n) ∧
    Set.ncard {g' | Equivalent g g'} * n = 1218998108160 := by
  obtain ⟨q', n', h1, h2, -⟩ := C27_automorphisms g hg fuel hf
  rw [hq] at h1
  simp only [Res.ok.injEq, Option.some.injEq, Prod.mk.injEq] at h1
  obtain ⟨-, rfl⟩ := h1
  rw [h2]
  exact ⟨fun g' h => C79_fair g g' (wellFormed_of_solved hg) h, C79_class_size g⟩

/-- **C79**: for a sudoku that is not completed, `canonicalized` returns the count of the solution.  The number of draws that
give one shuffled sudoku divides it, so there are at least 1218998108160 divided by it shuffled sudokus. -/
theorem C79_unsolved (g q : Grid) (n : Nat) (hg : WellFormed g) (fuel : Nat) (hf : 800 ≤ fuel)
    (hq : canonicalized fuel g = .ok (some (q, n))) :
    (∀ g', Equivalent g g' → Set.ncard {d | shuffle d g = .ok g'} ∣ n) ∧
    1218998108160 ≤ Set.ncard {g' | Equivalent g g'} * n := by
  obtain ⟨s, k, hs, hu, -, -, hk, -⟩ := canonicalized_some hg hf hq
  obtain ⟨q', n', h1, h2, h3⟩ := C27_automorphisms s hs.1 fuel hf
  rw [hk fuel hf] at h1
  simp only [Res.ok.injEq, Option.some.injEq, Prod.mk.injEq] at h1
  obtain ⟨-, rfl⟩ := h1
  have hle : MulAction.stabilizer Sym g ≤ MulAction.stabilizer Sym s := by
    intro T hT
    have hT : act T g = g := hT
    show act T s = s
    refine hu _ ?_
    have := (isSolution_act T g s).mpr hs
    rwa [hT] at this
  have hd : Set.ncard {T : Sym | act T g = g} ∣ n := by
    rw [h2, ← fixed_eq, ← fixed_eq]
    exact Subgroup.card_dvd_of_le hle
  refine ⟨fun g' h => by rw [C79_fair g g' hg h]; exact hd, ?_⟩
  rw [← C79_class_size g]
  exact Nat.mul_le_mul_left _ (Nat.le_of_dvd h3 hd)

/-- **C79**: equivalent sudokus have the same count, also if they are not completed. -/
theorem C79_same_count (g g' q q' : Grid) (n n' : Nat) (hg : WellFormed g) (fuel fuel' : Nat) (hf : 800 ≤ fuel)
    (hf' : 800 ≤ fuel') (hq : canonicalized fuel g = .ok (some (q, n))) (hq' : canonicalized fuel' g' = .ok (some (q', n')))
    (he : Equivalent g g') : n = n' := by
  obtain ⟨T, rfl⟩ := he
  obtain ⟨s, k, hs, hu, -, -, hk, -⟩ := canonicalized_some hg hf hq
  obtain ⟨s', k', hs', hu', -, -, hk', -⟩ := canonicalized_some (wellFormed_act T hg) hf' hq'
  obtain rfl : act T s = s' := hu' _ ((isSolution_act T g s).mpr hs)
  have h1 := (C79_solved _ _ n hs.1 fuel hf (hk fuel hf)).2
  have h2 := (C79_solved _ _ n' hs'.1 fuel' hf' (hk' fuel' hf')).2
  have h3 : {t | Equivalent (act T s) t} = {t | Equivalent s t} := by
    ext t
    exact ⟨fun h => Equivalent.trans ⟨T, rfl⟩ h, fun h => Equivalent.trans (Equivalent.symm ⟨T, rfl⟩) h⟩
  rw [h3] at h2
  refine Nat.eq_of_mul_eq_mul_left (Nat.pos_of_ne_zero fun h0 => ?_) (h1.trans h2.symm)
  rw [h0, Nat.zero_mul] at h1
  exact absurd h1 (by decide)

/-- C79: `patternGrid` has more than one automorphism, so it comes from more than one draw. -/
example : ∃ q n, Solved patternGrid ∧ canonicalized 800 patternGrid = .ok (some (q, n)) ∧ 1 < n ∧
    Set.ncard {g' | Equivalent patternGrid g'} * n = 1218998108160 := by
  have hs : Solved patternGrid := by decide +kernel
  obtain ⟨q, n, h1, h2, -⟩ := C27_automorphisms patternGrid hs 800 (Nat.le_refl _)
  refine ⟨q, n, hs, h1, ?_, (C79_solved _ q n hs 800 (Nat.le_refl _) h1).2⟩
  rw [h2, Set.one_lt_ncard (Set.toFinite _)]
  refine ⟨Sym.one, act_one _, rotation, by decide +kernel, fun h => ?_⟩
  have := congrArg (fun T => T.rows 0) h
  exact absurd this (by decide)

/-- C79: a sudoku that is not completed. -/
example : ∃ g q n, WellFormed g ∧ ¬ Solved g ∧ canonicalized 800 g = .ok (some (q, n)) ∧
    1218998108160 ≤ Set.ncard {g' | Equivalent g g'} * n := by
  have hs : Solved Ex.solved := by decide +kernel
  have hp := one_missing_wellFormed hs 0
  obtain ⟨h1, hu⟩ := unique_of_one_missing hs 0
  obtain ⟨k, n, hk, _⟩ := canonicalized_of_solution hp h1 hu (by decide +kernel)
  have hq := (hk 800 (Nat.le_refl _)).1
  exact ⟨_, _, n, hp, by decide +kernel, hq, (C79_unsolved _ _ n hp 800 (Nat.le_refl _) hq).2⟩

end Verif.Props
