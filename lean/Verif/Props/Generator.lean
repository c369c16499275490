import Verif.Proofs.Fuel
import Verif.Proofs.GenReach
import Verif.Proofs.Equivalence
import Verif.Props.Generate

/-!
# C35, C36, C43: generating completed grids and puzzles

All random choices are arguments: `perm` is the shuffled first row, `rng` the stream of random numbers drawn by the
search, `order` the shuffled order in which cells are removed.  Every theorem is about all of them.
-/
namespace Verif.Props

open Verif Sudoku Generator Bitset

/-- A completed grid with first row `1..9`. -/
def firstGrid : Grid := #v[
  1,2,3,4,5,6,7,8,9, 4,5,6,7,8,9,1,2,3, 7,8,9,1,2,3,4,5,6,
  2,3,1,5,6,4,8,9,7, 5,6,4,8,9,7,2,3,1, 8,9,7,2,3,1,5,6,4,
  3,1,2,6,4,5,9,7,8, 6,4,5,9,7,8,3,1,2, 9,7,8,3,1,2,6,4,5]

theorem firstGrid_solved : Solved firstGrid := by decide +kernel
theorem firstGrid_row : ∀ i : Fin 9, cellRC firstGrid 0 i = UInt8.ofNat (i.val + 1) := by decide +kernel

/-- The digits of a row. -/
def rowDigit (perm : List Nat) (hp : perm.Perm [1, 2, 3, 4, 5, 6, 7, 8, 9]) (i : Fin 9) : Digit :=
  ⟨perm[i.val]'(by rw [hp.length_eq]; exact i.isLt) - 1, by
    have := hp.mem_iff.mp (List.getElem_mem (l := perm) (n := i.val) (by rw [hp.length_eq]; exact i.isLt))
    simp only [List.mem_cons, List.not_mem_nil, or_false] at this
    omega⟩

theorem perm_pos {perm : List Nat} (hp : perm.Perm [1, 2, 3, 4, 5, 6, 7, 8, 9]) {x : Nat} (hx : x ∈ perm) :
    0 < x ∧ x < 10 := by
  have := hp.mem_iff.mp hx
  simp only [List.mem_cons, List.not_mem_nil, or_false] at this
  omega

theorem rowDigit_get {perm : List Nat} (hp : perm.Perm [1, 2, 3, 4, 5, 6, 7, 8, 9]) (i : Fin 9) :
    (rowDigit perm hp i).get.toNat = perm[i.val]'(by rw [hp.length_eq]; exact i.isLt) := by
  rw [Digit.get_toNat]
  have := perm_pos hp (List.getElem_mem (l := perm) (n := i.val) (by rw [hp.length_eq]; exact i.isLt))
  show perm[i.val]'(by rw [hp.length_eq]; exact i.isLt) - 1 + 1 = _
  omega

theorem rowDigit_inj {perm : List Nat} (hp : perm.Perm [1, 2, 3, 4, 5, 6, 7, 8, 9]) :
    Function.Injective (rowDigit perm hp) := by
  intro i j h
  have e : perm[i.val]'(by rw [hp.length_eq]; exact i.isLt) = perm[j.val]'(by rw [hp.length_eq]; exact j.isLt) := by
    rw [← rowDigit_get hp i, ← rowDigit_get hp j, h]
  have hn : perm.Nodup := hp.nodup_iff.mpr (by decide)
  exact Fin.ext ((List.Nodup.getElem_inj_iff hn).mp e)

/-- There is a completed grid with any given first row. -/
theorem exists_row {perm : List Nat} (hp : perm.Perm [1, 2, 3, 4, 5, 6, 7, 8, 9]) :
    ∃ t, Solved t ∧ ∀ i : Fin 9, t[i.val] = (rowDigit perm hp i).get := by
  let p : Equiv.Perm (Fin 9) := Equiv.ofBijective _ (Finite.injective_iff_bijective.mp (rowDigit_inj hp))
  let T : Sym := ⟨false, 1, 1, p, KeepsChutes.one, KeepsChutes.one⟩
  refine ⟨act T firstGrid, solved_act_of T firstGrid_solved, fun i => ?_⟩
  have h := act_rc T firstGrid 0 i
  have e : cellRC (act T firstGrid) 0 i = (act T firstGrid)[i.val] := by
    unfold cellRC
    simp
  rw [← e, h]
  show relabel p (cellRC firstGrid 0 i) = _
  rw [firstGrid_row, relabel_of_mem]
  rfl

/-- The candidates of the first row. -/
theorem initialStack_eq {perm : List Nat} (hp : perm.Perm [1, 2, 3, 4, 5, 6, 7, 8, 9]) :
    initialStack perm = .ok ((List.finRange 9).map (fun i : Fin 9 =>
      (⟨⟨i.val, by omega⟩, rowDigit perm hp i⟩ : Candidate))).reverse := by
  have hl : perm.length = 9 := hp.length_eq
  have hz : (List.range 9).zip perm = (List.finRange 9).map (fun i => (i.val, perm[i.val]'(by omega))) := by
    apply List.ext_getElem
    · simp [hl]
    · intro n h1 h2
      simp
  unfold initialStack
  rw [hz, List.mapM_map]
  rw [Res.mapM_ok _ (fun i : Fin 9 => (⟨⟨i.val, by omega⟩, rowDigit perm hp i⟩ : Candidate))]
  · rfl
  · intro i _
    have := perm_pos hp (List.getElem_mem (l := perm) (n := i.val) (by omega))
    show Candidate.new i.val perm[i.val] = _
    unfold Candidate.new
    rw [dif_pos (show i.val < 81 by omega)]
    exact dif_pos this

theorem new_grid : ∀ c : Fin 81, Gen.new.grid[c] = 0 := by decide +kernel

/-- **C35**: whatever the random choices are, `generate_solved` terminates without panicking and returns a valid
completed grid whose first row is the drawn permutation. -/
theorem C35_generate_solved (perm : List Nat) (hp : perm.Perm [1, 2, 3, 4, 5, 6, 7, 8, 9]) (rng : Nat → Nat)
    (fuel : Nat) (hf : 1460 ≤ fuel) :
    ∃ g rng', generateSolved fuel perm rng = .ok (g, rng') ∧ Solved g ∧
      (g.toList.take 9).map UInt8.toNat = perm := by
  have hsz := size_bound new_inv
  have hspec := solveOne_spec fuel hf fuel Gen.new ((List.finRange 9).map (fun i : Fin 9 =>
      (⟨⟨i.val, by omega⟩, rowDigit perm hp i⟩ : Candidate))).reverse rng new_inv new_fresh (fun e _ => new_grid _)
      (by rw [if_neg (by simp [List.finRange_succ])]; omega)
  unfold generateSolved
  rw [initialStack_eq hp, Res.ok_bind]
  cases hr : Gen.solveOne fuel fuel Gen.new ((List.finRange 9).map (fun i : Fin 9 =>
      (⟨⟨i.val, by omega⟩, rowDigit perm hp i⟩ : Candidate))).reverse rng with
  | err => rw [hr] at hspec; exact hspec.elim
  | panic => rw [hr] at hspec; exact hspec.elim
  | timeout => rw [hr] at hspec; exact hspec.elim
  | ok r =>
    rw [hr] at hspec
    obtain ⟨res, rng'⟩ := r
    cases res with
    | none =>
      exfalso
      obtain ⟨t, ht, hrow⟩ := exists_row hp
      refine hspec t (new_sat ht) ?_
      intro e he
      rw [List.mem_reverse, List.mem_map] at he
      obtain ⟨i, _, rfl⟩ := he
      exact hrow i
    | some g =>
      obtain ⟨h1, _, h3⟩ := hspec
      refine ⟨g, rng', rfl, h1, ?_⟩
      have hl : perm.length = 9 := hp.length_eq
      apply List.ext_getElem
      · simp [hl]
      · intro n hn1 hn2
        have hn : n < 9 := by simpa using hn1
        obtain ⟨e, he, e1, e2⟩ := h3 (by simp) ⟨n, by omega⟩ (new_grid _)
          ⟨⟨⟨n, by omega⟩, rowDigit perm hp ⟨n, hn⟩⟩, by
            rw [List.mem_reverse, List.mem_map]
            exact ⟨⟨n, hn⟩, List.mem_finRange _, rfl⟩, rfl⟩
        rw [List.mem_reverse, List.mem_map] at he
        obtain ⟨i, _, rfl⟩ := he
        have hin : i.val = n := congrArg Fin.val e1
        have e2 : g[n] = (rowDigit perm hp i).get := e2
        rw [List.getElem_map, List.getElem_take, Vector.getElem_toList, e2, rowDigit_get]
        simp only [hin]

/-- Non-vacuity: a shuffled first row and a stream of random numbers. -/
example : [3, 1, 2, 9, 8, 7, 4, 6, 5].Perm [1, 2, 3, 4, 5, 6, 7, 8, 9] := by decide

theorem digit_mem : ∀ d : Digit, d.val + 1 ∈ [1, 2, 3, 4, 5, 6, 7, 8, 9] := by decide

/-- **C43**: every valid completed grid is returned by `generate_solved` for some random choices. -/
theorem C43_generates_every_grid (t : Grid) (ht : Solved t) (fuel : Nat) (hf : 1460 ≤ fuel) :
    ∃ perm rng rng', perm.Perm [1, 2, 3, 4, 5, 6, 7, 8, 9] ∧ generateSolved fuel perm rng = .ok (t, rng') := by
  have hsz := size_bound new_inv
  have hp : ((List.finRange 9).map (fun i : Fin 9 => t[i.val].toNat)).Perm [1, 2, 3, 4, 5, 6, 7, 8, 9] := by
    have hn : ((List.finRange 9).map (fun i : Fin 9 => t[i.val].toNat)).Nodup := by
      refine (List.nodup_finRange 9).map_on ?_
      intro i _ j _ h
      by_contra hne
      have e := UInt8.toNat_inj.mp h
      refine ht.2 ⟨i.val, by omega⟩ ⟨j.val, by omega⟩ ?_ (Or.inl (by show i.val / 9 = j.val / 9; omega)) e
      intro h
      have : i.val = j.val := congrArg (fun x : Fin 81 => x.val) h
      exact hne (Fin.ext this)
    refine (List.Nodup.subperm hn ?_).perm_of_length_le (by simp)
    intro x hx
    rw [List.mem_map] at hx
    obtain ⟨i, _, rfl⟩ := hx
    obtain ⟨d, hd⟩ := Digit.exists_get (ht.1 ⟨i.val, by omega⟩)
    have hd : t[i.val] = d.get := hd
    rw [hd, Digit.get_toNat]
    exact digit_mem d
  obtain ⟨rng, rng', hr⟩ := solveOne_reach fuel hf fuel Gen.new ((List.finRange 9).map (fun i : Fin 9 =>
      (⟨⟨i.val, by omega⟩, rowDigit _ hp i⟩ : Candidate))).reverse t new_inv new_fresh (fun e _ => new_grid _)
      (by rw [if_neg (by simp [List.finRange_succ])]; omega) (new_sat ht) (by
        intro e he
        rw [List.mem_reverse, List.mem_map] at he
        obtain ⟨i, _, rfl⟩ := he
        show t[i.val] = _
        rw [← UInt8.toNat_inj, rowDigit_get]
        simp)
  refine ⟨_, rng, rng', hp, ?_⟩
  unfold generateSolved
  rw [initialStack_eq hp, Res.ok_bind, hr, Res.ok_bind]

/-- Non-vacuity: a completed grid. -/
example : Solved firstGrid := firstGrid_solved

theorem solved_isUnique {g : Grid} (h : Solved g) : UniquelySolvable g := by
  refine ⟨g, ⟨h, fun _ _ => rfl⟩, fun t ht => ?_⟩
  apply grid_ext
  intro c
  apply ht.2
  intro h0
  have := (h.1 c).1
  rw [h0] at this
  exact absurd this (by decide)

theorem solved_isWellFormed {g : Grid} (h : Solved g) : WellFormed g := fun c => (h.1 c).2

theorem solved_symmetric {g : Grid} (h : Solved g) (m : Motion) : SymmetricUnder m g := by
  intro x _ h0
  have := (h.1 (m.cell x)).1
  rw [h0] at this
  exact absurd this (by decide)

/-- **C35**: the result does not depend on the fuel of the model. -/
theorem C35_terminates (perm : List Nat) (hp : perm.Perm [1, 2, 3, 4, 5, 6, 7, 8, 9]) (rng : Nat → Nat) :
    ∃ v, ∀ fuel, 1460 ≤ fuel → generateSolved fuel perm rng = .ok v := by
  obtain ⟨g, rng', h, -⟩ := C35_generate_solved perm hp rng 1460 (Nat.le_refl _)
  exact ⟨_, fun fuel hf => (generateSolved_le hf perm rng).ok h⟩

/-- **C36**: for all random choices `generate_with_symmetry` terminates without panicking and returns a uniquely
solvable puzzle with the requested symmetry in which no symmetry class that holds a clue can be emptied without losing
uniqueness. -/
theorem C36_generate_with_symmetry (s : Symmetry) (perm : List Nat) (hp : perm.Perm [1, 2, 3, 4, 5, 6, 7, 8, 9])
    (rng : Nat → Nat) (order : List Nat) (ho : order.Perm (List.range 81)) (fuel : Nat) (hf : 1460 ≤ fuel) :
    ∃ p, generateWithSymmetry fuel s perm rng order = .ok p ∧ WellFormed p ∧ UniquelySolvable p ∧
      (∀ m ∈ motions s, SymmetricUnder m p) ∧
      ∀ x : Fin 81, p[x] ≠ 0 → ∀ p' : Grid,
        (∀ y : Fin 81, (Linked s x y → p'[y] = 0) ∧ (¬ Linked s x y → p'[y] = p[y])) → ¬ UniquelySolvable p' := by
  obtain ⟨g, rng', hg, hs, _⟩ := C35_generate_solved perm hp rng fuel hf
  have hw := solved_isWellFormed hs
  have hu := solved_isUnique hs
  obtain ⟨p, h1, h2, h3, _⟩ := C30_generate_from g hw hu s order ho fuel (by omega)
  obtain ⟨p1, h1', h4⟩ := C31_minimal g hw hu s order ho fuel (by omega)
  obtain ⟨p2, h1'', h5⟩ := C32_symmetric g hw s (fun m _ => solved_symmetric hs m) order ho fuel (by omega)
  rw [h1] at h1' h1''
  have e1 := Res.ok.inj h1'
  have e2 := Res.ok.inj h1''
  subst e1
  subst e2
  refine ⟨p, ?_, ?_, h3, h5, h4⟩
  · unfold generateWithSymmetry
    rw [hg, Res.ok_bind]
    exact h1
  · intro c
    by_cases h0 : p[c] = 0
    · rw [h0]; decide
    · rw [(h2 c).resolve_left h0]; exact hw c

/-- **C36** for `generate`: the puzzle looks the same after half a turn. -/
theorem C36_generate (perm : List Nat) (hp : perm.Perm [1, 2, 3, 4, 5, 6, 7, 8, 9])
    (rng : Nat → Nat) (order : List Nat) (ho : order.Perm (List.range 81)) (fuel : Nat) (hf : 1460 ≤ fuel) :
    ∃ p, generate fuel perm rng order = .ok p ∧ UniquelySolvable p ∧ SymmetricUnder .half p := by
  obtain ⟨p, h1, _, h2, h3, _⟩ := C36_generate_with_symmetry .halfRotation perm hp rng order ho fuel hf
  exact ⟨p, h1, h2, h3 .half (by simp [motions])⟩

end Verif.Props
