import Verif.Proofs.GenerateReach
import Verif.Props.Generator

/-!
# C61: which puzzles can be generated
-/
namespace Verif.Props

open Verif Sudoku Generator

/-- No symmetry class that holds a clue can be emptied without losing uniqueness. -/
def Minimal (s : Symmetry) (p : Grid) : Prop :=
  ∀ x : Fin 81, p[x] ≠ 0 → ∀ p' : Grid,
    (∀ y : Fin 81, (Linked s x y → p'[y] = 0) ∧ (¬ Linked s x y → p'[y] = p[y])) → ¬ UniquelySolvable p'

theorem Minimal.without {s : Symmetry} {p : Grid} (h : Minimal s p) (x : Fin 81) (hx : p[x] ≠ 0) :
    ¬ UniquelySolvable (Verif.without p (classOf s x)) := by
  refine h x hx _ fun y => ?_
  rw [without_get, linked_class]
  exact ⟨fun h => if_pos h, fun h => if_neg h⟩

/-- **C61**: the outcomes of `generate_with_symmetry_from` for a uniquely solvable sudoku are exactly the uniquely solvable
minimal puzzles that arise from it by emptying whole symmetry classes. -/
theorem C61_generate_from (g : Grid) (hw : WellFormed g) (hu : UniquelySolvable g) (s : Symmetry) (fuel : Nat)
    (hf : 800 ≤ fuel) (p : Grid) :
    (∃ order : List Nat, order.Perm (List.range 81) ∧ generateWithSymmetryFrom fuel g s order = .ok p) ↔
      SubClues p g ∧ UniquelySolvable p ∧ Minimal s p ∧
      ∀ x y : Fin 81, Linked s x y → p[x] ≠ 0 → p[y] = g[y] := by
  constructor
  · rintro ⟨order, ho, h⟩
    obtain ⟨p1, e1, h1, h2, -⟩ := C30_generate_from g hw hu s order ho fuel hf
    obtain ⟨p2, e2, h3⟩ := C31_minimal g hw hu s order ho fuel hf
    obtain ⟨p3, e3, v, inv⟩ := generate_spec fuel hf s g hw ho
    rw [h] at e1 e2 e3
    cases e1
    cases e2
    cases e3
    refine ⟨h1, h2, h3, fun x y hl hx => ?_⟩
    rcases inv.whole x with h | h
    · exact absurd (h x (class_self s x)) hx
    · exact h y (linked_class.1 hl)
  · rintro ⟨h1, h2, h3, h4⟩
    obtain ⟨t, ht, -⟩ := hu
    refine generate_reaches fuel hf s hw ⟨t, ht⟩ h1 h2 (fun x => ?_) h3.without
    by_cases h : ∀ y ∈ classOf s x, p[y] = 0
    · exact .inl h
    · push Not at h
      obtain ⟨y, hy, hne⟩ := h
      exact .inr fun z hz => h4 y z (linked_class.2 ((class_eq s hy z).1 hz)) hne

/-- **C61**: the outcomes of `generate_with_symmetry` are exactly the minimal uniquely solvable puzzles with that
symmetry. -/
theorem C61_generate_with_symmetry (s : Symmetry) (fuel : Nat) (hf : 1460 ≤ fuel) (p : Grid) :
    (∃ (perm : List Nat) (rng : Nat → Nat) (order : List Nat), perm.Perm [1, 2, 3, 4, 5, 6, 7, 8, 9] ∧
      order.Perm (List.range 81) ∧ generateWithSymmetry fuel s perm rng order = .ok p) ↔
      WellFormed p ∧ UniquelySolvable p ∧ (∀ m ∈ motions s, SymmetricUnder m p) ∧ Minimal s p := by
  constructor
  · rintro ⟨perm, rng, order, hp, ho, h⟩
    obtain ⟨p1, e1, h1⟩ := C36_generate_with_symmetry s perm hp rng order ho fuel hf
    rw [h] at e1
    cases e1
    exact h1
  · rintro ⟨h1, h2, h3, h4⟩
    obtain ⟨t, ht, hut⟩ := h2
    obtain ⟨perm, rng, rng', hp, hg⟩ := C43_generates_every_grid t ht.1 fuel hf
    have hsub : SubClues p t := fun x => by
      by_cases h0 : p[x] = 0
      · exact .inl h0
      · exact .inr (ht.2 x h0).symm
    have hlink : ∀ x y : Fin 81, Linked s x y → p[x] ≠ 0 → p[y] ≠ 0 := by
      intro x y hl hx
      induction hl with
      | refl => exact hx
      | tail _ hm ih =>
        obtain ⟨m, hm, rfl⟩ := hm
        exact h3 m hm _ ih
    obtain ⟨order, ho, h⟩ := (C61_generate_from t (solved_isWellFormed ht.1) (solved_isUnique ht.1) s fuel (by omega) p).2
      ⟨hsub, ⟨t, ht, hut⟩, h4, fun x y hl hx => (hsub y).resolve_left (hlink x y hl hx)⟩
    refine ⟨perm, rng, order, hp, ho, ?_⟩
    unfold generateWithSymmetry
    rw [hg, Res.ok_bind]
    exact h

/-- **C61** for `generate`: its outcomes are exactly the uniquely solvable puzzles that look the same after half a turn and
in which no clue can be removed, together with the one opposite to it. -/
theorem C61_generate (fuel : Nat) (hf : 1460 ≤ fuel) (p : Grid) :
    (∃ (perm : List Nat) (rng : Nat → Nat) (order : List Nat), perm.Perm [1, 2, 3, 4, 5, 6, 7, 8, 9] ∧
      order.Perm (List.range 81) ∧ generate fuel perm rng order = .ok p) ↔
      WellFormed p ∧ UniquelySolvable p ∧ SymmetricUnder .half p ∧
        ∀ x : Fin 81, p[x] ≠ 0 → ¬ UniquelySolvable ((p.set x 0).set (80 - x.val) 0) := by
  classical
  refine (C61_generate_with_symmetry .halfRotation fuel hf p).trans ?_
  have hsym : (∀ m ∈ motions .halfRotation, SymmetricUnder m p) ↔ SymmetricUnder .half p := by simp [motions]
  rw [hsym]
  refine and_congr_right fun _ => and_congr_right fun _ => and_congr_right fun _ => ?_
  have hcell : ∀ x y : Fin 81, Linked .halfRotation x y ↔ y = x ∨ y.val = 80 - x.val := by
    intro x y
    rw [linked_class, mem_classOf]
    have hx := x.isLt
    simp only [correspondingCells, List.mem_cons, List.not_mem_nil, or_false, mirr, cellAtRC, Fin.ext_iff]
    have : (8 - x.val / 9) * 9 + (8 - x.val % 9) = 80 - x.val := by omega
    rw [this]
  have hset : ∀ x y : Fin 81, ((p.set x 0).set (80 - x.val) 0)[y] = if Linked .halfRotation x y then 0 else p[y] := by
    intro x y
    simp only [hcell, Fin.getElem_fin, Vector.getElem_set, Fin.ext_iff]
    by_cases h1 : 80 - x.val = y.val
    · rw [if_pos h1, if_pos (Or.inr h1.symm)]
    · rw [if_neg h1]
      by_cases h2 : x.val = y.val
      · rw [if_pos h2, if_pos (Or.inl h2.symm)]
      · rw [if_neg h2, if_neg (by omega)]
  constructor
  · intro h x hx
    exact h x hx _ fun y => ⟨fun hl => by rw [hset, if_pos hl], fun hl => by rw [hset, if_neg hl]⟩
  · intro h x hx p' hp'
    have : p' = (p.set x 0).set (80 - x.val) 0 := by
      refine grid_ext fun y => ?_
      rw [hset]
      split
      · rename_i hl; exact (hp' y).1 hl
      · rename_i hl; exact (hp' y).2 hl
    rw [this]
    exact h x hx

/-- Such puzzles exist below a given puzzle: those that are found by visiting the cells in their order. -/
example : WellFormed Ex.puzzle ∧ UniquelySolvable Ex.puzzle ∧ ∃ p, SubClues p Ex.puzzle ∧ UniquelySolvable p ∧
    Minimal .none p ∧ ∀ x y : Fin 81, Linked .none x y → p[x] ≠ 0 → p[y] = Ex.puzzle[y] := by
  have hw : WellFormed Ex.puzzle := by decide +kernel
  have hu : UniquelySolvable Ex.puzzle := by
    obtain ⟨b, h1, h2⟩ := C05_is_uniquely_solvable Ex.puzzle hw 800 (Nat.le_refl _)
    have h3 : isUniquelySolvable 800 Ex.puzzle = .ok true := by decide +kernel
    rw [h3] at h1
    cases h1
    exact h2.1 rfl
  obtain ⟨p, h1, -⟩ := C30_generate_from Ex.puzzle hw hu .none (List.range 81) (List.Perm.refl _) 800 (Nat.le_refl _)
  exact ⟨hw, hu, p, (C61_generate_from Ex.puzzle hw hu .none 800 (Nat.le_refl _) p).1 ⟨_, List.Perm.refl _, h1⟩⟩

/-- And those of `generate` exist. -/
example : ∃ p, WellFormed p ∧ UniquelySolvable p ∧ SymmetricUnder .half p ∧
    ∀ x : Fin 81, p[x] ≠ 0 → ¬ UniquelySolvable ((p.set x 0).set (80 - x.val) 0) := by
  obtain ⟨p, h, -⟩ := C36_generate [1, 2, 3, 4, 5, 6, 7, 8, 9] (List.Perm.refl _) (fun _ => 0) (List.range 81)
    (List.Perm.refl _) 1460 (Nat.le_refl _)
  exact ⟨p, (C61_generate 1460 (Nat.le_refl _) p).1 ⟨_, _, _, List.Perm.refl _, List.Perm.refl _, h⟩⟩

end Verif.Props
