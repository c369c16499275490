import Verif.Proofs.Generate

/-!
# Every minimal puzzle is the outcome of some order of the cells
-/
namespace Verif
namespace Sudoku

/-- Removing cells that are empty in `p` from a grid above `p`. -/
theorem genLoop_remove (fuel : Nat) (hf : 800 ≤ fuel) (s : Symmetry) {p : Grid} (hu : UniquelySolvable p)
    (o2 : List (Fin 81)) : ∀ (o : List (Fin 81)) (v : Vector Bool 81) (g : Grid), WellFormed g → SubClues p g →
    (∃ t, IsSolution g t) → (∀ x ∈ o, ∀ y ∈ classOf s x, p[y] = 0) → (∀ x : Fin 81, v[x] = true → g[x] = 0) →
    ∃ v' g', generateLoop fuel s ((o ++ o2).map Fin.val) v g = generateLoop fuel s (o2.map Fin.val) v' g' ∧
      SubClues p g' ∧ SubClues g' g ∧ ∀ x ∈ o, g'[x] = 0 := by
  intro o
  induction o with
  | nil => intro v g _ h _ _ _; exact ⟨v, g, rfl, h, SubClues.refl g, fun x hx => by cases hx⟩
  | cons c o ih =>
    intro v g hw hsub hsol ho hv
    rw [List.cons_append, genLoop_step]
    by_cases hvc : v[c] = true
    · rw [if_pos hvc]
      obtain ⟨v', g', h1, h2, h3, h4⟩ := ih v g hw hsub hsol (fun x hx => ho x (List.mem_cons_of_mem _ hx)) hv
      refine ⟨v', g', h1, h2, h3, fun x hx => ?_⟩
      rcases List.mem_cons.1 hx with rfl | hx
      · rcases h3 x with h | h
        · exact h
        · rw [h]; exact hv x hvc
      · exact h4 x hx
    · rw [if_neg hvc]
      obtain ⟨v1, tmp, h1, h2, h3⟩ := clearCells_spec (classOf s c) v g
      have htmp : tmp = without g (classOf s c) := grid_ext (fun x => by rw [h3, without_get])
      have hsubt : SubClues tmp g := by rw [htmp]; exact without_subClues _ _
      have hwt := hsubt.wellFormed hw
      have hpt : SubClues p tmp := by
        intro x
        rw [h3]
        split
        · rename_i hx; exact .inl (ho c (by simp) x hx)
        · exact hsub x
      obtain ⟨t, ht⟩ := hsol
      have hut : UniquelySolvable tmp := by
        obtain ⟨t0, -, h0⟩ := hu
        refine ⟨t, hsubt.isSolution ht, fun t' ht' => ?_⟩
        rw [h0 t' (hpt.isSolution ht'), h0 t (hsub.isSolution ht)]
      rw [h1]
      simp only [Res.ok_bind]
      obtain ⟨b, hb1, hb2⟩ := Props.C05_is_uniquely_solvable tmp hwt fuel hf
      rw [hb1]
      simp only [Res.ok_bind]
      rw [if_pos (hb2.2 hut)]
      obtain ⟨v', g', e1, e2, e3, e4⟩ := ih v1 tmp hwt hpt ⟨t, hsubt.isSolution ht⟩
        (fun x hx => ho x (List.mem_cons_of_mem _ hx)) (by
          intro x hx
          rw [h3]
          split
          · rfl
          · rename_i hn
            rw [h2] at hx
            simp only [hn, decide_false, Bool.false_or] at hx
            exact hv x hx)
      refine ⟨v', g', e1, e2, e3.trans hsubt, fun x hx => ?_⟩
      rcases List.mem_cons.1 hx with rfl | hx
      · rcases e3 x with h | h
        · exact h
        · rw [h, h3, if_pos (class_self s x)]
      · exact e4 x hx

/-- Cells that cannot be removed. -/
theorem genLoop_keep (fuel : Nat) (hf : 800 ≤ fuel) (s : Symmetry) {p : Grid} (hw : WellFormed p) :
    ∀ (o : List (Fin 81)) (v : Vector Bool 81), (∀ x ∈ o, ¬ UniquelySolvable (without p (classOf s x))) →
    generateLoop fuel s (o.map Fin.val) v p = .ok p := by
  intro o
  induction o with
  | nil => intro v _; rfl
  | cons c o ih =>
    intro v ho
    have ho' := fun x hx => ho x (List.mem_cons_of_mem c hx)
    rw [genLoop_step]
    by_cases hvc : v[c] = true
    · rw [if_pos hvc]; exact ih v ho'
    · rw [if_neg hvc]
      obtain ⟨v1, tmp, h1, h2, h3⟩ := clearCells_spec (classOf s c) v p
      have htmp : tmp = without p (classOf s c) := grid_ext (fun x => by rw [h3, without_get])
      rw [h1]
      simp only [Res.ok_bind]
      obtain ⟨b, hb1, hb2⟩ := Props.C05_is_uniquely_solvable tmp
        (by rw [htmp]; exact (without_subClues _ _).wellFormed hw) fuel hf
      rw [hb1]
      simp only [Res.ok_bind]
      rw [if_neg (fun hb => ho c (by simp) (htmp ▸ hb2.1 hb))]
      exact ih v1 ho'

theorem generate_reaches (fuel : Nat) (hf : 800 ≤ fuel) (s : Symmetry) {g p : Grid} (hw : WellFormed g)
    (hsol : ∃ t, IsSolution g t) (hsub : SubClues p g) (hu : UniquelySolvable p)
    (hwhole : ∀ x : Fin 81, (∀ y ∈ classOf s x, p[y] = 0) ∨ (∀ y ∈ classOf s x, p[y] = g[y]))
    (hmin : ∀ x : Fin 81, p[x] ≠ 0 → ¬ UniquelySolvable (without p (classOf s x))) :
    ∃ order, order.Perm (List.range 81) ∧ generateWithSymmetryFrom fuel g s order = .ok p := by
  let P : Fin 81 → Bool := fun x => decide (∀ y ∈ classOf s x, p[y] = 0)
  let o1 := (List.finRange 81).filter P
  let o2 := (List.finRange 81).filter (fun x => !P x)
  refine ⟨(o1 ++ o2).map Fin.val, ?_, ?_⟩
  · have h1 : (o1 ++ o2).Perm (List.finRange 81) := List.filter_append_perm P _
    have h2 := h1.map Fin.val
    have h3 : (List.finRange 81).map Fin.val = List.range 81 := by decide +kernel
    rwa [h3] at h2
  · unfold generateWithSymmetryFrom
    obtain ⟨v', g', e1, e2, e3, e4⟩ := genLoop_remove fuel hf s hu o2 o1 (Vector.replicate 81 false) g hw hsub hsol
      (fun x hx => of_decide_eq_true (List.mem_filter.1 hx).2) (by simp)
    have hg' : g' = p := by
      refine grid_ext fun x => ?_
      by_cases h0 : p[x] = 0
      · rw [h0]
        rcases hwhole x with h | h
        · exact e4 x (List.mem_filter.2 ⟨List.mem_finRange x, decide_eq_true h⟩)
        · have := h x (class_self s x)
          rcases e3 x with h' | h'
          · exact h'
          · rw [h', ← this, h0]
      · exact ((e2 x).resolve_left h0).symm
    rw [e1, hg']
    refine genLoop_keep fuel hf s (hsub.wellFormed hw) o2 v' fun x hx => ?_
    have hx := (List.mem_filter.1 hx).2
    have hx : ¬ ∀ y ∈ classOf s x, p[y] = 0 := by simpa [P] using hx
    push Not at hx
    obtain ⟨y, hy, hne⟩ := hx
    rw [without_class_eq s p hy]
    exact hmin y hne

end Sudoku
end Verif
