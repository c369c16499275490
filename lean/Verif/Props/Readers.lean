import Verif.Props.Block
import Verif.Model.Programs

/-!
# C81: the two readers of blocks agree
-/
namespace Verif.Props

open Verif Text Sudoku Programs

private theorem Matches_cells {t : List Bool} {b : List Char} {vs : List UInt8} (h : Matches t b vs) :
    b.filterMap cellValue = vs := by
  induction h with
  | nil => rfl
  | cell hv _ ih => rw [List.filterMap_cons, hv, ih]
  | bar _ ih => rw [List.filterMap_cons, show cellValue '|' = none by decide, ih]

private theorem Matches_length {t : List Bool} {b : List Char} {vs : List UInt8} (h : Matches t b vs) :
    vs.length = t.count true := by
  induction h with
  | nil => rfl
  | cell _ _ ih => simp [ih]
  | bar _ ih => simp [ih]

private theorem RowOK_row {d : Bool} {l : List Char} {vs : List UInt8} (h : RowOK d l vs) : lineRow l = some vs := by
  obtain ⟨body, tail, rfl, hm, -⟩ := h
  have h9 : vs.length = 9 := by rw [Matches_length hm]; cases d <;> rfl
  unfold lineRow
  rw [List.filterMap_append, Matches_cells hm, List.length_append, h9, if_pos (by omega),
    List.take_append_of_le_length (by omega), List.take_of_length_le (by omega)]

private theorem block_rows {d plus : Bool} {items : List Bool} {ls : List (List Char)} {vss : List (List UInt8)}
    (h : BlockMatches d plus items ls vss)
    (hs : ∀ l ∈ ls, l.head? = some '-' → (l.filterMap cellValue).length < 9) : ls.filterMap lineRow = vss := by
  induction h with
  | nil => rfl
  | row hr _ ih =>
    rw [List.filterMap_cons, RowOK_row hr, ih fun l hl => hs l (List.mem_cons_of_mem _ hl)]
  | @sep l _ _ _ hsep _ ih =>
    have hl : lineRow l = none := by
      obtain ⟨rest, hrest⟩ := hsep
      have := hs l (by simp) (by rw [hrest]; cases plus <;> rfl)
      unfold lineRow
      rw [if_neg (by omega)]
    rw [List.filterMap_cons, hl, ih fun l hl => hs l (List.mem_cons_of_mem _ hl)]

theorem rows_ext {g h : Grid} (e : List.ofFn (gridRow g) = List.ofFn (gridRow h)) : g = h := by
  have e := List.ofFn_injective e
  refine Vector.ext fun i hi => ?_
  have := congrFun e ⟨i / 9, by omega⟩
  have h1 := congrArg (fun l => l[i % 9]?) this
  simp only [gridRow_getElem _ _ _ (Nat.mod_lt i (by omega : 0 < 9)), Option.some.injEq] at h1
  have h2 : 9 * (i / 9) + i % 9 = i := Nat.div_add_mod i 9
  simpa only [h2] using h1

private theorem read_rows {s : List Char} {g : Grid} {block rest : List (List Char)} (h : lines s = block ++ rest)
    (hb : block.filterMap lineRow = List.ofFn (gridRow g)) : fromStrBlockPermissive s = .ok (.ok g) := by
  have hp : permissiveRows s = List.ofFn (gridRow g) ++ rest.filterMap lineRow := by
    show (lines s).filterMap lineRow = _
    rw [h, List.filterMap_append, hb]
  obtain ⟨g', h1, h2⟩ := (C18_from_str_block_permissive s).1 (by rw [hp]; simp)
  rw [h1]
  refine congrArg (fun x => Res.ok (Except.ok x)) (rows_ext ?_)
  rw [h2, hp, List.take_append_of_le_length (by simp), List.take_of_length_le (by simp)]

/-- **C81**: what `from_str_block` accepts, `from_str_block_permissive` reads as the same sudoku, unless the text after a
horizontal field delimiter has nine cell characters. -/
theorem C81_agree (s : List Char) (g : Grid) (h : fromStrBlock s = .ok (.ok g))
    (hs : ∀ l ∈ lines s, l.head? = some '-' → (l.filterMap cellValue).length < 9) :
    fromStrBlockPermissive s = .ok (.ok g) := by
  obtain ⟨d, plus, block, rest, h1, h2, -⟩ := (C16_from_str_block s g).mp h
  exact read_rows h1 (block_rows h2 fun l hl => hs l (by rw [h1]; exact List.mem_append_left _ hl))

/-- **C81**: without field delimiters they always agree. -/
theorem C81_agree_bare (s : List Char) (g : Grid) (h : fromStrBlock s = .ok (.ok g))
    (hs : usesDelimiters (lines s) = false) : fromStrBlockPermissive s = .ok (.ok g) := by
  obtain ⟨d, plus, block, rest, h1, h2, -⟩ := (C16_from_str_block s g).mp h
  have hd : d = false := by
    rw [h1] at hs
    cases d with
    | false => rfl
    | true => exact absurd ((shape_determined h2 rfl).1.symm.trans hs) (by decide)
  subst hd
  refine read_rows h1 ?_
  have key : ∀ (items : List Bool) (ls : List (List Char)) (vss : List (List UInt8)), (∀ b ∈ items, b = true) →
      BlockMatches false plus items ls vss → ls.filterMap lineRow = vss := by
    intro items ls vss hi h
    induction h with
    | nil => rfl
    | row hr _ ih => rw [List.filterMap_cons, RowOK_row hr, ih fun b hb => hi b (List.mem_cons_of_mem _ hb)]
    | sep _ _ _ => exact absurd (hi false (by simp)) (by simp)
  exact key _ _ _ (by decide) h2

/-- A block with digits after the first horizontal delimiter. -/
def misread : List Char :=
  let row : List Char := ['1', '_', '_', '|', '_', '_', '_', '|', '_', '_', '_', '\n']
  let sep : List Char := ['-', '-', '-', '-', '-', '-', '-', '-', '-', '-', '-']
  row ++ row ++ row ++ sep ++ [' ', '2', '2', '2', '2', '2', '2', '2', '2', '2', '\n'] ++ row ++ row ++ row ++ sep ++
    ['\n'] ++ row ++ row ++ row

/-- C81: with nine digits after a horizontal field delimiter both accept the text and read different sudokus. -/
theorem C81_misread_false : ∃ g g', fromStrBlock misread = .ok (.ok g) ∧ fromStrBlockPermissive misread = .ok (.ok g') ∧
    g ≠ g' := by
  have h : (match fromStrBlock misread, fromStrBlockPermissive misread with
      | .ok (.ok g), .ok (.ok g') => decide (g ≠ g')
      | _, _ => false) = true := by decide +kernel
  split at h
  · rename_i g g' h1 h2
    exact ⟨g, g', h1, h2, of_decide_eq_true h⟩
  · cases h

/-- **C81**: `from_str_block` never reads the printed block (it starts with an empty line). -/
theorem C81_printed (g : Grid) (hg : WellFormed g) : fromStrBlock (displayBlock g) = .ok (.error (.invalidLineLength 0)) := by
  have hl : ∃ ls, lines (displayBlock g) = [] :: ls := by
    rw [displayBlock_eq g hg]
    exact ⟨_, rfl⟩
  obtain ⟨ls, hl⟩ := hl
  rw [C17_from_str_block_error_partial]
  unfold BlockError
  rw [hl]
  refine ⟨[], blockTemplate (usesDelimiters ([] :: ls)), [], [] :: ls, [], rfl, rfl, .nil, ?_⟩
  have hd : usesDelimiters ([] :: ls) = false := rfl
  rw [hd]
  exact ⟨[], rowTemplate false, [], [], [], rfl, rfl, .nil, rfl⟩

/-- C81: the program `examples/example.rs` panics: its text has vertical but no horizontal field delimiters, which
`from_str_block` rejects (the comment there says that the pipes are ignored). -/
theorem C81_example_false : fromStrBlock exampleText = .ok (.error .incorrectFieldDelimiter) ∧
    ∀ fuel, exampleMain fuel = .panic := by
  have h : fromStrBlock exampleText = .ok (.error .incorrectFieldDelimiter) := by decide +kernel
  refine ⟨h, fun fuel => ?_⟩
  unfold exampleMain
  rw [h]
  rfl

/-- C81: `from_str_block_permissive` reads that text. -/
theorem C81_example_permissive : ∃ g, fromStrBlockPermissive exampleText = .ok (.ok g) ∧ WellFormed g ∧
    ∃ t, solution 800 g = .ok (some t) ∧ IsSolution g t := by
  have h : (match fromStrBlockPermissive exampleText with
      | .ok (.ok g) => decide (WellFormed g) && (match solution 800 g with
        | .ok (some t) => decide (IsSolution g t)
        | _ => false)
      | _ => false) = true := by decide +kernel
  split at h
  · rename_i g h1
    rw [Bool.and_eq_true] at h
    obtain ⟨h2, h⟩ := h
    split at h
    · rename_i t h3
      exact ⟨g, h1, of_decide_eq_true h2, t, h3, of_decide_eq_true h⟩
    · cases h
  · cases h

/-- C81: a block with field delimiters and comments. -/
example : fromStrBlock (delimitedText Ex.puzzle) = .ok (.ok Ex.puzzle) ∧
    ∀ l ∈ lines (delimitedText Ex.puzzle), l.head? = some '-' → (l.filterMap cellValue).length < 9 := by decide +kernel

/-- C81: a block without field delimiters. -/
example : let row : List Char := ['1', '_', '_', '_', '5', '_', '_', '_', '_', ' ', '7', '\n']
    (∃ g, fromStrBlock (List.replicate 9 row).flatten = .ok (.ok g)) ∧
    usesDelimiters (lines (List.replicate 9 row).flatten) = false := by
  refine ⟨?_, by decide +kernel⟩
  have h : (match fromStrBlock (List.replicate 9 ['1', '_', '_', '_', '5', '_', '_', '_', '_', ' ', '7', '\n']).flatten with
      | .ok (.ok _) => true
      | _ => false) = true := by decide +kernel
  split at h
  · exact ⟨_, by assumption⟩
  · cases h

end Verif.Props
