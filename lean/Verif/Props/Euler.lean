import Verif.Spec.Split
import Verif.Props.Readers
import Verif.Props.Obtainable

/-!
# C83: the program `examples/project_euler.rs`
-/
namespace Verif.Props

open Verif Text Sudoku Programs

private theorem not_prefix {c : Char} {u r : List Char} (h : ¬ gridWord <:+: c :: u) : ¬ gridWord <+: c :: u ++ (gridWord ++ r) := by
  intro hp
  have hp' := hp
  rcases Nat.lt_or_ge u.length 3 with hl | hl
  · unfold gridWord at hp
    match u, hl with
    | [], _ => simp at hp
    | [a], _ => simp at hp
    | [a, b], _ => simp at hp
  · refine h (List.IsPrefix.isInfix (List.prefix_of_prefix_length_le hp' ⟨_, rfl⟩ ?_))
    simp only [List.length_cons, gridWord, List.length_nil]
    omega

private theorem split_last (p acc : List Char) (h : ¬ gridWord <:+: p) : splitGrid 0 acc p = [acc.reverse ++ p] := by
  induction p generalizing acc with
  | nil => simp [splitGrid]
  | cons c p ih =>
    unfold splitGrid
    rw [if_neg (by
      rw [List.isPrefixOf_iff_prefix]
      exact fun hp => h hp.isInfix), ih _ (fun hi => h (hi.trans (List.suffix_cons c p).isInfix))]
    simp

private theorem split_word (p acc r : List Char) (h : ¬ gridWord <:+: p) :
    splitGrid 0 acc (p ++ (gridWord ++ r)) = (acc.reverse ++ p) :: splitGrid 0 [] r := by
  induction p generalizing acc with
  | nil =>
    show splitGrid 0 acc ('G' :: 'r' :: 'i' :: 'd' :: r) = _
    rw [splitGrid, if_pos (by rw [List.isPrefixOf_iff_prefix]; exact ⟨r, rfl⟩)]
    simp [splitGrid]
  | cons c p ih =>
    show splitGrid 0 acc (c :: (p ++ (gridWord ++ r))) = _
    rw [splitGrid, if_neg (by
      rw [List.isPrefixOf_iff_prefix]
      exact not_prefix h), ih _ (fun hi => h (hi.trans (List.suffix_cons c p).isInfix))]
    simp

private theorem split_of {text first : List Char} {ps : List (List Char)} (h : SplitInto gridWord text first ps) :
    splitGrid 0 [] text = first :: ps := by
  induction ps generalizing text first with
  | nil =>
    rw [h.1, List.flatMap_nil, List.append_nil]
    exact split_last _ _ (h.2 _ (by simp))
  | cons p ps ih =>
    rw [h.1, List.flatMap_cons, List.append_assoc, split_word _ _ _ (h.2 _ (by simp)),
      ih ⟨rfl, fun q hq => h.2 q (List.mem_cons_of_mem _ hq)⟩]
    rfl

private theorem exists_split : ∀ (n : Nat) (text : List Char), text.length ≤ n → ∃ first ps, SplitInto gridWord text first ps := by
  intro n
  induction n with
  | zero =>
    intro text h
    obtain rfl := List.length_eq_zero_iff.mp (Nat.le_zero.mp h)
    exact ⟨[], [], rfl, by decide⟩
  | succ n ih =>
    intro text h
    cases text with
    | nil => exact ⟨[], [], rfl, by decide⟩
    | cons c rest =>
      by_cases hp : gridWord <+: c :: rest
      · obtain ⟨r, hr⟩ := hp
        have hl := congrArg List.length hr
        simp only [List.length_append, List.length_cons, gridWord, List.length_nil] at hl h
        obtain ⟨first, ps, h1, h2⟩ := ih r (by omega)
        refine ⟨[], first :: ps, ?_, List.forall_mem_cons.mpr ⟨by decide, h2⟩⟩
        rw [← hr, h1]
        simp
      · obtain ⟨first, ps, h1, h2⟩ := ih rest (by simpa using h)
        refine ⟨c :: first, ps, by rw [h1]; rfl, List.forall_mem_cons.mpr ⟨fun hi => ?_, (List.forall_mem_cons.mp h2).2⟩⟩
        rcases List.infix_cons_iff.mp hi with hi | hi
        · refine hp (hi.trans ⟨ps.flatMap (fun p => gridWord ++ p), ?_⟩)
          rw [h1]
          rfl
        · exact h2 first (by simp) hi

/-- **C83**: `split("Grid")` gives the pieces between the occurrences of the word. -/
theorem C83_split (text first : List Char) (ps : List (List Char)) :
    splitGrid 0 [] text = first :: ps ↔ SplitInto gridWord text first ps := by
  refine ⟨fun h => ?_, split_of⟩
  obtain ⟨first', ps', h'⟩ := exists_split _ text (Nat.le_refl _)
  rw [split_of h'] at h
  cases h
  exact h'

private theorem corner_eq (t : Grid) : cornerNumber t = cornerOf t := by
  have h : t.toList.take 3 = [t[0], t[1], t[2]] := by
    refine List.ext_getElem (by simp) fun i h1 h2 => ?_
    have h3 : i < 3 := by simpa using h2
    match i, h3 with
    | 0, _ => simp
    | 1, _ => simp
    | 2, _ => simp
  unfold cornerNumber cornerOf
  rw [h]
  simp only [List.foldl_cons, List.foldl_nil]
  omega

private theorem corner_le {t : Grid} (h : WellFormed t) : cornerOf t ≤ 999 := by
  have h0 : t[0].toNat ≤ 9 := h 0
  have h1 : t[1].toNat ≤ 9 := h 1
  have h2 : t[2].toNat ≤ 9 := h 2
  unfold cornerOf
  omega

private theorem reads {p : List Char} {g : Grid} (h : HoldsRows p g) : fromStrBlockPermissive p = .ok (.ok g) := by
  obtain ⟨g', h1, h2⟩ := (C18_from_str_block_permissive p).1 h.1
  rw [h1, rows_ext (h2.trans h.2.symm)]

private theorem rows_wf {p : List Char} {g : Grid} (h : HoldsRows p g) : WellFormed g :=
  (C82_obtainable g).mp (.fromStrBlockPermissive (reads h))

private theorem loop_sum {fuel : Nat} (hf : 800 ≤ fuel) : ∀ (ps : List (List Char)) (gs : List Grid) (sum : Nat),
    List.Forall₂ HoldsRows ps gs → (∀ g ∈ gs, ∃ t, IsSolution g t) → sum + 999 * ps.length < 4294967296 →
    ∃ ts, List.Forall₂ IsSolution gs ts ∧ eulerLoop fuel ps sum = .ok (sum + (ts.map cornerOf).sum) := by
  intro ps
  induction ps with
  | nil =>
    intro gs sum h _ _
    cases h
    exact ⟨[], .nil, rfl⟩
  | cons p ps ih =>
    intro gs sum h hs hb
    cases h with
    | @cons _ g _ gs h1 h =>
      have hw := rows_wf h1
      rcases C04_some_solution g hw fuel hf with ⟨-, h2⟩ | ⟨t, h2, h3⟩
      · obtain ⟨t, ht⟩ := hs g (by simp)
        exact absurd ht (h2 t)
      · have hc := corner_le (solved_isWellFormed h3.1)
        rw [List.length_cons] at hb
        obtain ⟨ts, h4, h5⟩ := ih gs (sum + cornerOf t) h (fun g hg => hs g (List.mem_cons_of_mem _ hg)) (by omega)
        refine ⟨t :: ts, .cons h3 h4, ?_⟩
        unfold eulerLoop
        rw [reads h1]
        simp only [Res.ok_bind, h2]
        rw [corner_eq, if_pos (by omega), h5, List.map_cons, List.sum_cons, Nat.add_assoc]

/-- **C83**: for every text in place of the file, if the pieces after each `Grid` hold solvable sudokus (the first nine
lines with nine cells), at most 4,000,000 of them, the program prints the sum of the numbers in the corners of solutions. -/
theorem C83_sum {text first : List Char} {ps : List (List Char)} {gs : List Grid} {fuel : Nat}
    (h : SplitInto gridWord text first ps) (hg : List.Forall₂ HoldsRows ps gs) (hs : ∀ g ∈ gs, ∃ t, IsSolution g t)
    (hl : ps.length ≤ 4000000) (hf : 800 ≤ fuel) :
    ∃ ts, List.Forall₂ IsSolution gs ts ∧ projectEuler fuel text = .ok (ts.map cornerOf).sum := by
  obtain ⟨ts, h1, h2⟩ := loop_sum hf ps gs 0 hg hs (by omega)
  refine ⟨ts, h1, ?_⟩
  unfold projectEuler
  rw [split_of h, List.drop_one, List.tail_cons, h2, Nat.zero_add]

private theorem unique_solutions {gs ts ts' : List Grid} (h : List.Forall₂ IsSolution gs ts)
    (h' : List.Forall₂ (fun g t => IsSolution g t ∧ ∀ t', IsSolution g t' → t' = t) gs ts') : ts = ts' := by
  induction h generalizing ts' with
  | nil => cases h'; rfl
  | cons h1 _ ih =>
    cases h' with
    | cons h2 h' => rw [h2.2 _ h1, ih h']

/-- **C83**: if the solutions are unique, the program prints the sum that the problem asks for. -/
theorem C83_unique {text first : List Char} {ps : List (List Char)} {gs ts : List Grid} {fuel : Nat}
    (h : SplitInto gridWord text first ps) (hg : List.Forall₂ HoldsRows ps gs)
    (hs : List.Forall₂ (fun g t => IsSolution g t ∧ ∀ t', IsSolution g t' → t' = t) gs ts)
    (hl : ps.length ≤ 4000000) (hf : 800 ≤ fuel) : projectEuler fuel text = .ok (ts.map cornerOf).sum := by
  have hall : ∀ g ∈ gs, ∃ t, IsSolution g t := by
    clear hg h
    intro g hg
    induction hs with
    | nil => cases hg
    | cons h1 _ ih =>
      rcases List.mem_cons.mp hg with rfl | hg
      · exact ⟨_, h1.1⟩
      · exact ih hg
  obtain ⟨ts', h1, h2⟩ := C83_sum h hg hall hl hf
  rw [h2, unique_solutions h1 hs]

private theorem loop_panics {fuel : Nat} (hf : 800 ≤ fuel) : ∀ (ps : List (List Char)) (sum : Nat),
    (∃ p ∈ ps, (permissiveRows p).length < 9 ∨ ∃ g, HoldsRows p g ∧ ∀ t, ¬ IsSolution g t) →
    eulerLoop fuel ps sum = .panic := by
  intro ps
  induction ps with
  | nil => rintro sum ⟨p, hp, -⟩; cases hp
  | cons p ps ih =>
    rintro sum ⟨q, hq, hbad⟩
    unfold eulerLoop
    rcases Nat.lt_or_ge (permissiveRows p).length 9 with h9 | h9
    · rw [(C18_from_str_block_permissive p).2 h9]
      rfl
    · obtain ⟨g, h1, h2⟩ := (C18_from_str_block_permissive p).1 h9
      have hr : HoldsRows p g := ⟨h9, h2⟩
      rw [h1]
      simp only [Res.ok_bind]
      rcases C04_some_solution g (rows_wf hr) fuel hf with ⟨h3, -⟩ | ⟨t, h3, h4⟩
      · rw [h3]
        rfl
      · rw [h3]
        simp only [Res.ok_bind]
        split
        · refine ih _ ?_
          rcases List.mem_cons.mp hq with rfl | hq
          · rcases hbad with hbad | ⟨g', h5, h6⟩
            · omega
            · exact absurd h4 (rows_ext (h2.trans h5.2.symm) ▸ h6 t)
          · exact ⟨q, hq, hbad⟩
        · rfl

/-- **C83**: if some piece has fewer than nine lines with nine cells or its sudoku has no solution, the program panics. -/
theorem C83_panics {text first : List Char} {ps : List (List Char)} {fuel : Nat} (h : SplitInto gridWord text first ps)
    (hbad : ∃ p ∈ ps, (permissiveRows p).length < 9 ∨ ∃ g, HoldsRows p g ∧ ∀ t, ¬ IsSolution g t) (hf : 800 ≤ fuel) :
    projectEuler fuel text = .panic := by
  unfold projectEuler
  rw [split_of h, List.drop_one, List.tail_cons]
  exact loop_panics hf ps 0 hbad

private theorem some_fuel {g : Grid} (hg : WellFormed g) {fuel : Nat} (hf : 800 ≤ fuel) :
    someSolution fuel g = someSolution 800 g := by
  obtain ⟨L, h⟩ := exists_results hg 1
  unfold someSolution
  rw [h.buffer fuel hf, h.buffer 800 (Nat.le_refl _)]

private theorem loop_fuel {fuel : Nat} (hf : 800 ≤ fuel) (ps : List (List Char)) (sum : Nat) :
    eulerLoop fuel ps sum = eulerLoop 800 ps sum := by
  induction ps generalizing sum with
  | nil => rfl
  | cons p ps ih =>
    unfold eulerLoop
    rcases Nat.lt_or_ge (permissiveRows p).length 9 with h9 | h9
    · rw [(C18_from_str_block_permissive p).2 h9]
      rfl
    · obtain ⟨g, h1, h2⟩ := (C18_from_str_block_permissive p).1 h9
      rw [h1]
      simp only [Res.ok_bind, some_fuel (rows_wf ⟨h9, h2⟩) hf, ih]

private theorem loop_total (ps : List (List Char)) (sum : Nat) :
    eulerLoop 800 ps sum = .panic ∨ ∃ n, eulerLoop 800 ps sum = .ok n := by
  induction ps generalizing sum with
  | nil => exact Or.inr ⟨sum, rfl⟩
  | cons p ps ih =>
    unfold eulerLoop
    rcases Nat.lt_or_ge (permissiveRows p).length 9 with h9 | h9
    · rw [(C18_from_str_block_permissive p).2 h9]
      exact Or.inl rfl
    · obtain ⟨g, h1, h2⟩ := (C18_from_str_block_permissive p).1 h9
      rw [h1]
      simp only [Res.ok_bind]
      rcases C04_some_solution g (rows_wf ⟨h9, h2⟩) 800 (Nat.le_refl _) with ⟨h3, -⟩ | ⟨t, h3, -⟩
      · rw [h3]
        exact Or.inl rfl
      · rw [h3]
        simp only [Res.ok_bind]
        split
        · exact ih _
        · exact Or.inl rfl

/-- **C83**: the program ends for every text, with a number or a panic; the result does not depend on the fuel of the
model. -/
theorem C83_terminates (text : List Char) : ∃ v, (∀ fuel, 800 ≤ fuel → projectEuler fuel text = v) ∧
    (v = .panic ∨ ∃ n, v = .ok n) :=
  ⟨projectEuler 800 text, fun _ hf => loop_fuel hf _ _, loop_total _ _⟩

/-- examples/p096_sudoku.txt lines 1-10. -/
def grid01 : List Char := [
  'G', 'r', 'i', 'd', ' ', '0', '1', '\n',
  '0', '0', '3', '0', '2', '0', '6', '0', '0', '\n',
  '9', '0', '0', '3', '0', '5', '0', '0', '1', '\n',
  '0', '0', '1', '8', '0', '6', '4', '0', '0', '\n',
  '0', '0', '8', '1', '0', '2', '9', '0', '0', '\n',
  '7', '0', '0', '0', '0', '0', '0', '0', '8', '\n',
  '0', '0', '6', '7', '0', '8', '2', '0', '0', '\n',
  '0', '0', '2', '6', '0', '9', '5', '0', '0', '\n',
  '8', '0', '0', '2', '0', '3', '0', '0', '9', '\n',
  '0', '0', '5', '0', '1', '0', '3', '0', '0', '\n']

/-- C83: the program prints 483 for the first sudoku of the file. -/
example : projectEuler 800 grid01 = .ok 483 := by
  have h : (match projectEuler 800 grid01 with | .ok n => n | _ => 0) = 483 := by decide +kernel
  split at h
  · rename_i n hn
    rw [hn, h]
  · cases h

/-- C83: the first sudoku of the file, alone and after a text without `Grid`. -/
example : SplitInto gridWord ('G' :: 'r' :: grid01) ['G', 'r'] [grid01.drop 4] ∧
    HoldsRows (grid01.drop 4) (match fromStrBlockPermissive grid01 with | .ok (.ok g) => g | _ => Vector.replicate 81 0) := by
  refine ⟨(C83_split _ _ _).mp (by decide +kernel), ?_⟩
  unfold HoldsRows
  decide +kernel

/-- C83: a text without any row. -/
example : SplitInto gridWord gridWord [] [[]] ∧ (permissiveRows []).length < 9 :=
  ⟨(C83_split _ _ _).mp (by decide), by decide⟩

end Verif.Props
