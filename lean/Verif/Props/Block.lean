import Verif.Proofs.Permissive
import Verif.Spec.Examples

/-!
# Properties C16-C19: the block formats
-/
namespace Verif.Props

open Verif Text Sudoku

theorem shape_determined {d plus : Bool} {block rest : List (List Char)} {vss : List (List UInt8)}
    {after : List Bool} (h : BlockMatches d plus (true :: true :: true :: after) block vss)
    (ha : after.head? = some (!d)) :
    usesDelimiters (block ++ rest) = d ∧ (d = true → usesPlus (block ++ rest) = plus) := by
  cases h with
  | row h1 h =>
  cases h with
  | row h2 h =>
  cases h with
  | row h3 h =>
  rename_i l1 _ l2 _ l3 _ ls _
  constructor
  · obtain ⟨body, tail, rfl, hm, -⟩ := h1
    unfold usesDelimiters
    simp only [List.cons_append, List.head?_cons, Option.bind_some]
    cases d with
    | false =>
      simp only [rowTemplate, Bool.false_eq_true, if_false, List.replicate_succ] at hm
      cases hm with
      | cell _ hm => cases hm with
      | cell _ hm => cases hm with
      | cell _ hm => cases hm with
      | cell hv hm =>
        rename_i c3 _ _ _
        have : c3 ≠ '|' := by
          rintro rfl
          rw [show cellValue '|' = none by decide] at hv
          cases hv
        simp [this]
    | true =>
      simp only [rowTemplate, if_true] at hm
      cases hm with
      | cell _ hm => cases hm with
      | cell _ hm => cases hm with
      | cell _ hm => cases hm with
      | bar hm => simp
  · intro hd
    subst hd
    cases after with
    | nil => cases ha
    | cons b after =>
      simp only [List.head?_cons, Option.some.injEq, Bool.not_true] at ha
      subst ha
      cases h with
      | sep hs h =>
        rename_i l4 ls'
        unfold usesPlus
        simp only [List.cons_append, List.getElem?_cons_succ, List.getElem?_cons_zero]
        obtain ⟨r, rfl⟩ := hs
        cases plus with
        | true => exact List.isPrefixOf_iff_prefix.2 ⟨r, rfl⟩
        | false =>
          show (sepText true).isPrefixOf (sepText false ++ r) = false
          rfl

theorem plus_irrelevant {plus plus' : Bool} : ∀ {items : List Bool} {ls : List (List Char)}
    {vss : List (List UInt8)}, (∀ b ∈ items, b = true) → BlockMatches false plus items ls vss →
    BlockMatches false plus' items ls vss := by
  intro items ls vss hi h
  induction h with
  | nil => exact .nil
  | row hr _ ih => exact .row hr (ih (fun b hb => hi b (List.mem_cons_of_mem _ hb)))
  | sep _ _ _ => exact absurd (hi false (by simp)) (by simp)

/-- **C16**, **C17** (success): `from_str_block` returns a sudoku exactly when the text is that sudoku in the
block format: nine rows of nine cells (`'1'`-`'9'`, or one of `'0'`, `'_'`, `'.'` for an empty cell), either
all without or all with `'|'` after the third and sixth cell; in the latter case with horizontal field
delimiters `-----------` or `---+---+---` (both the same) after the third and sixth row; every row optionally
followed by a space or tab and any text; and the line after the last row, if any, is blank. -/
theorem C16_from_str_block (s : List Char) (g : Grid) :
    fromStrBlock s = .ok (.ok g) ↔ IsBlock s g := by
  rw [fromStrBlock_eq]
  constructor
  · intro h
    generalize hd : usesDelimiters (lines s) = d at h
    generalize hp : usesPlus (lines s) = plus at h
    cases hb : blockSpec d plus (blockTemplate d) 0 (lines s) with
    | error e => rw [hb] at h; cases h
    | ok vss =>
      rw [hb] at h
      simp only [Res.ok.injEq, Except.ok.injEq] at h
      obtain ⟨block, rest, h1, h2, h3⟩ := (blockSpec_ok_iff _ _ _ _ _ _).1 hb
      have hr := BlockMatches.rows h2
      have h9 : vss.length = 9 := by rw [hr.1]; cases d <;> rfl
      have := rows_eq_grid h9 hr.2.2 (Vector.replicate 81 0)
      rw [h] at this
      rw [this] at h2
      exact ⟨d, plus, block, rest, h1, h2, h3⟩
  · rintro ⟨d, plus, block, rest, h1, h2, h3⟩
    have hshape := shape_determined (rest := rest) (after := (blockTemplate d).drop 3) (d := d) (plus := plus)
      (block := block) (vss := List.ofFn (gridRow g)) (by cases d <;> exact h2) (by cases d <;> rfl)
    rw [h1, hshape.1]
    have h2' : BlockMatches d (usesPlus (block ++ rest)) (blockTemplate d) block (List.ofFn (gridRow g)) := by
      cases d with
      | true => rw [hshape.2 rfl]; exact h2
      | false =>
        refine plus_irrelevant ?_ h2
        intro b hb
        simp only [blockTemplate, rowTemplate, Bool.false_eq_true, if_false, List.mem_replicate] at hb
        exact hb.2
    rw [(blockSpec_ok_iff _ _ _ 0 _ _).2 ⟨block, rest, rfl, h2', h3⟩]
    have hr := BlockMatches.rows h2
    have h9 : (List.ofFn (gridRow g)).length = 9 := by simp
    have hg := grid_of_rows (rows_eq_grid h9 hr.2.2 (Vector.replicate 81 0)).symm
    exact congrArg (fun x => Res.ok (Except.ok x)) hg

/-- **C16** (lines): the text made of the given lines, each ended by `"\n"` or each ended by `"\r\n"`, has
these lines; the last line need not be ended.  So C16 applies to the texts one would expect. -/
theorem C16_lines_of_text (ls : List (List Char)) (h : ∀ l ∈ ls, '\n' ∉ l ∧ l.getLast? ≠ some '\r') :
    lines (ls.flatMap (fun l => l ++ ['\n'])) = ls ∧
    lines (ls.flatMap (fun l => l ++ ['\r', '\n'])) = ls ∧
    (∀ l, '\n' ∉ l → l ≠ [] →
      lines (ls.flatMap (fun l => l ++ ['\n']) ++ l) = ls ++ [l] ∧
      lines (ls.flatMap (fun l => l ++ ['\r', '\n']) ++ l) = ls ++ [l]) := by
  induction ls with
  | nil => exact ⟨rfl, rfl, fun l h1 h2 => ⟨lines_last h1 h2, lines_last h1 h2⟩⟩
  | cons l ls ih =>
    obtain ⟨i1, i2, i3⟩ := ih (fun x hx => h x (List.mem_cons_of_mem _ hx))
    have hl := h l (by simp)
    refine ⟨?_, ?_, ?_⟩
    · rw [List.flatMap_cons, List.append_assoc]
      exact (lines_cons hl.1 hl.2).trans (congrArg (l :: ·) i1)
    · rw [List.flatMap_cons, List.append_assoc]
      exact (lines_cons_cr hl.1).trans (congrArg (l :: ·) i2)
    · intro x h1 h2
      constructor
      · rw [List.flatMap_cons, List.append_assoc, List.append_assoc]
        exact (lines_cons hl.1 hl.2).trans (congrArg (l :: ·) (i3 x h1 h2).1)
      · rw [List.flatMap_cons, List.append_assoc, List.append_assoc]
        exact (lines_cons_cr hl.1).trans (congrArg (l :: ·) (i3 x h1 h2).2)

/-- **C17** (errors): `from_str_block` returns an error exactly when the error describes the first thing
wrong with the text. -/
theorem C17_from_str_block_error_partial (s : List Char) (e : BlockParseError) :
    fromStrBlock s = .ok (.error e) ↔ BlockError s e := by
  rw [fromStrBlock_eq]
  unfold BlockError
  simp only
  have key := blockSpec_error_iff (usesDelimiters (lines s)) (usesPlus (lines s))
    (blockTemplate (usesDelimiters (lines s))) 0 (lines s) e
  simp only [Nat.zero_add] at key
  rw [← key]
  cases hb : blockSpec (usesDelimiters (lines s)) (usesPlus (lines s))
    (blockTemplate (usesDelimiters (lines s))) 0 (lines s) with
  | error e' => simp
  | ok vss => simp

/-- **C17** (totality): `from_str_block` never panics and always returns. -/
theorem C17_from_str_block_total (s : List Char) : ∃ r, fromStrBlock s = .ok r := by
  rw [fromStrBlock_eq]
  split <;> exact ⟨_, rfl⟩

/-- **C17** (fields of the errors): cell and row numbers reported are in the documented ranges, and the
row number reported for too few rows is one more than the number of complete rows before the end of the text,
hence between 1 and 9. -/
theorem C17_error_fields {s : List Char} {e : BlockParseError} (h : fromStrBlock s = .ok (.error e)) :
    match e with
    | .invalidEntry cell ch => cell < 81 ∧ cellValue ch = none ∧ ch ∈ s
    | .invalidLineLength row => row < 9
    | .missingCommentDelimiter row => row < 9
    | .notEnoughRows n => 1 ≤ n ∧ n ≤ 9
    | _ => True := by
  rw [C17_from_str_block_error_partial] at h
  have mem_of_lines : ∀ (s acc : List Char) (l : List Char) (c : Char), l ∈ linesAux acc s → c ∈ l →
      c ∈ s ∨ c ∈ acc := by
    intro s
    induction s with
    | nil =>
      intro acc l c hl hc
      rw [linesAux_nil] at hl
      split at hl
      · cases hl
      · rw [List.mem_singleton.1 hl] at hc
        exact .inr (List.mem_reverse.1 hc)
    | cons x s ih =>
      intro acc l c hl hc
      by_cases hx : x = '\n'
      · subst hx
        rw [linesAux_newline] at hl
        rcases List.mem_cons.1 hl with rfl | hl
        · right
          unfold strip at hc
          split at hc
          · exact List.mem_cons_of_mem _ (List.mem_reverse.1 hc)
          · exact List.mem_reverse.1 hc
        · rcases ih [] l c hl hc with h | h
          · exact .inl (List.mem_cons_of_mem _ h)
          · cases h
      · unfold linesAux at hl
        rw [if_neg hx] at hl
        rcases ih _ l c hl hc with h | h
        · exact .inl (List.mem_cons_of_mem _ h)
        · rcases List.mem_cons.1 h with rfl | h
          · exact .inl (by simp)
          · exact .inr h
  unfold BlockError at h
  simp only at h
  generalize usesDelimiters (lines s) = d at h
  generalize usesPlus (lines s) = plus at h
  obtain ⟨before, after, block, rest, rows, h1, h2, h3, h4⟩ := h
  have hr := BlockMatches.rows h3
  have hc : before.count true + after.count true = 9 := by
    rw [← List.count_append, ← h1]; cases d <;> rfl
  have hlast : (blockTemplate d).getLast? = some true := by cases d <;> rfl
  have hpos : ∀ b after', after = b :: after' → 1 ≤ after.count true := by
    rintro b after' rfl
    rw [h1, List.getLast?_append] at hlast
    rw [Nat.succ_le_iff, List.count_pos_iff]
    have : (b :: after').getLast? = some true := by
      cases hx : (b :: after').getLast? with
      | none => simp at hx
      | some y => rw [hx] at hlast; simpa using hlast
    exact List.mem_of_getLast? this
  cases after with
  | nil =>
    cases rest with
    | nil => cases h4
    | cons l rest => obtain ⟨-, rfl⟩ := h4; trivial
  | cons b after =>
    have hp := hpos b after rfl
    have hrows : rows.length < 9 := by omega
    cases rest with
    | nil =>
      have : e = .notEnoughRows (rows.length + 1) := by cases b <;> exact h4
      subst this
      exact ⟨by omega, by omega⟩
    | cons l rest =>
      cases b with
      | false => obtain ⟨-, rfl⟩ := h4; trivial
      | true =>
        obtain ⟨t1, t2, body, tail, vs, k1, rfl, k3, k4⟩ := h4
        have hv := Matches.length k3
        have hct : t1.count true + t2.count true = 9 := by
          rw [← List.count_append, ← k1, count_template]
        cases t2 with
        | nil =>
          cases tail with
          | nil => cases k4
          | cons c tail =>
            rcases k4 with ⟨-, rfl⟩ | ⟨-, -, rfl⟩ <;> exact hrows
        | cons b t2 =>
          cases tail with
          | nil =>
            have : e = .invalidLineLength rows.length := by cases b <;> exact k4
            subst this; exact hrows
          | cons c tail =>
            cases b with
            | false => obtain ⟨-, rfl⟩ := k4; trivial
            | true =>
              obtain ⟨hn, rfl⟩ := k4
              refine ⟨?_, hn, ?_⟩
              · simp only [List.count_cons_self] at hct
                omega
              · have hmem : (body ++ c :: tail) ∈ lines s := by rw [h2]; simp
                rcases mem_of_lines s [] _ c hmem (by simp) with h | h
                · exact h
                · cases h

/-- **C17** (what is missing): the documentation of `BlockParseError::NotEnoughRows` says that it carries the
number of rows encountered.  It does not: the empty text has no row and is reported with 1. -/
theorem C17_not_enough_rows_documentation_false :
    lines [] = [] ∧ fromStrBlock [] = .ok (.error (.notEnoughRows 1)) := by
  decide +kernel

/-- What `NotEnoughRows` carries: one more than the number of complete rows the text consists of. -/
theorem C17_not_enough_rows (s : List Char) (n : Nat) (h : fromStrBlock s = .ok (.error (.notEnoughRows n))) :
    ∃ d plus before rows, before <+: blockTemplate d ∧ BlockMatches d plus before (lines s) rows ∧
      n = rows.length + 1 := by
  rw [C17_from_str_block_error_partial] at h
  unfold BlockError at h
  simp only at h
  generalize usesDelimiters (lines s) = d at h
  generalize usesPlus (lines s) = plus at h
  obtain ⟨before, after, block, rest, rows, h1, h2, h3, h4⟩ := h
  refine ⟨d, plus, before, rows, ⟨after, h1.symm⟩, ?_⟩
  cases after with
  | nil =>
    cases rest with
    | nil => cases h4
    | cons l rest => exact absurd h4.2 (by simp)
  | cons b after =>
    cases rest with
    | nil =>
      rw [List.append_nil] at h2
      rw [h2]
      refine ⟨h3, ?_⟩
      have : BlockParseError.notEnoughRows n = .notEnoughRows (rows.length + 1) := by cases b <;> exact h4
      simpa using this
    | cons l rest =>
      exfalso
      cases b with
      | false => exact absurd h4.2 (by simp)
      | true =>
        obtain ⟨t1, t2, body, tail, vs, -, -, -, k4⟩ := h4
        cases t2 with
        | nil =>
          cases tail with
          | nil => cases k4
          | cons c tail => rcases k4 with ⟨-, h⟩ | ⟨-, -, h⟩ <;> cases h
        | cons b t2 =>
          cases tail with
          | nil => cases b <;> cases k4
          | cons c tail => cases b <;> exact absurd k4.2 (by simp)

/-- **C18**: `from_str_block_permissive` returns the sudoku whose rows are the first nine rows found, or
the number of rows found if there are fewer; it never panics. -/
theorem C18_from_str_block_permissive (s : List Char) :
    (9 ≤ (permissiveRows s).length → ∃ g, fromStrBlockPermissive s = .ok (.ok g) ∧
      List.ofFn (gridRow g) = (permissiveRows s).take 9) ∧
    ((permissiveRows s).length < 9 →
      fromStrBlockPermissive s = .ok (.error (permissiveRows s).length)) := by
  have key := permLoop_spec (lines s) 0 (Vector.replicate 81 0) (by omega)
  simp only [Nat.zero_add, Nat.not_lt_zero, if_false, Nat.sub_zero] at key
  have e : (lines s).filterMap lineRow = permissiveRows s := rfl
  rw [e] at key
  refine ⟨fun h => ?_, fun h => key.1 h⟩
  obtain ⟨g, h1, h2⟩ := key.2 h
  refine ⟨g, h1, ?_⟩
  apply List.ext_getElem?
  intro i
  by_cases hi : i < 9
  · rw [List.getElem?_take_of_lt hi, ← h2 ⟨i, hi⟩, List.getElem?_ofFn]
    simp [hi]
  · rw [List.getElem?_eq_none (by simp; omega), List.getElem?_eq_none (by simp; omega)]

/-- Every entry of `permissiveRows` has nine values. -/
theorem permissiveRows_length (s : List Char) : ∀ vs ∈ permissiveRows s, vs.length = 9 := by
  intro vs h
  unfold permissiveRows at h
  simp only [List.mem_filterMap] at h
  obtain ⟨l, -, h⟩ := h
  split at h
  · rename_i h9
    cases h
    rw [List.length_take]; omega
  · cases h

/-! ## The printed block -/

/-- The character printed for a cell. -/
def blockChar (v : UInt8) : Char := if v = 0 then '_' else Char.ofNat (48 + v.toNat)

/-- A printed row. -/
def printedRow (a : Fin 81 → Char) (r : Fin 9) : List Char :=
  [a ⟨9 * r, by omega⟩, a ⟨9 * r + 1, by omega⟩, a ⟨9 * r + 2, by omega⟩, ' ',
   a ⟨9 * r + 3, by omega⟩, a ⟨9 * r + 4, by omega⟩, a ⟨9 * r + 5, by omega⟩, ' ',
   a ⟨9 * r + 6, by omega⟩, a ⟨9 * r + 7, by omega⟩, a ⟨9 * r + 8, by omega⟩]

/-- What is printed before a cell. -/
def beforeCell (c : Fin 81) : List Char :=
  if (Pos.cellCol c).val = 3 ∨ (Pos.cellCol c).val = 6 then [' ']
  else if ((Pos.cellRow c).val = 3 ∧ (Pos.cellCol c).val = 0) ∨
      ((Pos.cellRow c).val = 6 ∧ (Pos.cellCol c).val = 0) then ['\n', '\n']
  else if (Pos.cellCol c).val = 0 then ['\n']
  else []

/-- What is printed for the content of a cell. -/
def cellText (v : UInt8) : List Char :=
  match Pos.digitNewChecked v with
  | none => ['_']
  | some d => Nat.toDigits 10 d.toNat

theorem displayCell_eq (g : Grid) (hg : WellFormed g) (c : Fin 81) :
    displayCell g c = beforeCell c ++ [blockChar g[c]] := by
  have h9 : (g[c]).toNat ≤ 9 := UInt8.le_iff_toNat_le.1 (hg c)
  have key : ∀ n : Fin 10, cellText (UInt8.ofNat n) = [blockChar (UInt8.ofNat n)] := by decide +kernel
  have := key ⟨(g[c]).toNat, by omega⟩
  simp only [UInt8.ofNat_toNat] at this
  rw [← this]
  rfl

theorem beforeCell_table : (List.finRange 81).map beforeCell =
    [['\n'], [], [], [' '], [], [], [' '], [], [],
     ['\n'], [], [], [' '], [], [], [' '], [], [],
     ['\n'], [], [], [' '], [], [], [' '], [], [],
     ['\n', '\n'], [], [], [' '], [], [], [' '], [], [],
     ['\n'], [], [], [' '], [], [], [' '], [], [],
     ['\n'], [], [], [' '], [], [], [' '], [], [],
     ['\n', '\n'], [], [], [' '], [], [], [' '], [], [],
     ['\n'], [], [], [' '], [], [], [' '], [], [],
     ['\n'], [], [], [' '], [], [], [' '], [], []] := by decide +kernel

theorem flatMap_zip (p : Fin 81 → List Char) (a : Fin 81 → Char) (l : List (Fin 81)) :
    l.flatMap (fun c => p c ++ [a c]) = ((l.map p).zip (l.map a)).flatMap (fun x => x.1 ++ [x.2]) := by
  induction l with
  | nil => rfl
  | cons c l ih => simp only [List.flatMap_cons, List.map_cons, List.zip_cons_cons, ih]

/-- The text printed, row by row. -/
theorem displayBlock_eq (g : Grid) (hg : WellFormed g) :
    displayBlock g =
      [] ++ '\n' :: (printedRow (fun c => blockChar g[c]) 0 ++ '\n' :: (printedRow (fun c => blockChar g[c]) 1
      ++ '\n' :: (printedRow (fun c => blockChar g[c]) 2 ++ '\n' :: ([] ++ '\n' ::
      (printedRow (fun c => blockChar g[c]) 3
      ++ '\n' :: (printedRow (fun c => blockChar g[c]) 4 ++ '\n' :: (printedRow (fun c => blockChar g[c]) 5
      ++ '\n' :: ([] ++ '\n' :: (printedRow (fun c => blockChar g[c]) 6 ++ '\n' ::
      (printedRow (fun c => blockChar g[c]) 7
      ++ '\n' :: printedRow (fun c => blockChar g[c]) 8)))))))))) := by
  have e : displayBlock g = (List.finRange 81).flatMap
      (fun c => beforeCell c ++ [blockChar g[c]]) := by
    unfold displayBlock
    congr 1
    funext c
    exact displayCell_eq g hg c
  rw [e, flatMap_zip beforeCell (fun c => blockChar g[c]), beforeCell_table]
  generalize (fun c : Fin 81 => blockChar g[c]) = a
  have : (List.finRange 81).map a = List.ofFn a := by rw [List.ofFn_eq_map]
  rw [this]
  rfl

theorem blockChar_facts (v : UInt8) (hv : v ≤ 9) :
    blockChar v ≠ '\n' ∧ blockChar v ≠ '\r' ∧ cellValue (blockChar v) = some v := by
  have h9 : v.toNat ≤ 9 := UInt8.le_iff_toNat_le.1 hv
  have key : ∀ n : Fin 10, blockChar (UInt8.ofNat n) ≠ '\n' ∧ blockChar (UInt8.ofNat n) ≠ '\r' ∧
      cellValue (blockChar (UInt8.ofNat n)) = some (UInt8.ofNat n) := by decide +kernel
  have := key ⟨v.toNat, by omega⟩
  simpa only [UInt8.ofNat_toNat] using this

/-- **C19**: the block printed for a sudoku is read back by `from_str_block_permissive`. -/
theorem C19_block_round_trip (g : Grid) (hg : WellFormed g) :
    fromStrBlockPermissive (displayBlock g) = .ok (.ok g) := by
  have hc : ∀ i : Fin 81, blockChar g[i] ≠ '\n' ∧ blockChar g[i] ≠ '\r' ∧
      cellValue (blockChar g[i]) = some g[i] := fun i => blockChar_facts _ (hg i)
  have h1 : ∀ r, '\n' ∉ printedRow (fun c => blockChar g[c]) r := by
    intro r h
    simp only [printedRow, List.mem_cons, List.not_mem_nil, or_false, show ('\n' = ' ') = False by decide,
      false_or] at h
    rcases h with h | h | h | h | h | h | h | h | h <;> exact (hc _).1 h.symm
  have h2 : ∀ r, (printedRow (fun c => blockChar g[c]) r).getLast? ≠ some '\r' := by
    intro r h
    simp only [printedRow, List.getLast?_cons_cons, List.getLast?_singleton, Option.some.injEq] at h
    exact (hc _).2.1 h
  have h3 : ∀ r, printedRow (fun c => blockChar g[c]) r ≠ [] := by intro r h; cases h
  have hn : '\n' ∉ ([] : List Char) := by simp
  have hn' : ([] : List Char).getLast? ≠ some '\r' := by simp
  have hlines : lines (displayBlock g) =
      [[], printedRow (fun c => blockChar g[c]) 0, printedRow (fun c => blockChar g[c]) 1,
       printedRow (fun c => blockChar g[c]) 2, [], printedRow (fun c => blockChar g[c]) 3,
       printedRow (fun c => blockChar g[c]) 4, printedRow (fun c => blockChar g[c]) 5, [],
       printedRow (fun c => blockChar g[c]) 6, printedRow (fun c => blockChar g[c]) 7,
       printedRow (fun c => blockChar g[c]) 8] := by
    rw [displayBlock_eq g hg]
    simp only [lines_cons hn hn', lines_cons (h1 _) (h2 _), lines_last (h1 _) (h3 _)]
  have hrow : ∀ r, (printedRow (fun c => blockChar g[c]) r).filterMap cellValue = gridRow g r := by
    intro r
    simp only [printedRow, List.filterMap_cons, (hc _).2.2, show cellValue ' ' = none by decide,
      List.filterMap_nil]
    rfl
  have hlen : ∀ r, (gridRow g r).length = 9 := fun r => rfl
  have hrows : permissiveRows (displayBlock g) = List.ofFn (gridRow g) := by
    unfold permissiveRows
    rw [hlines]
    have e0 : (if 9 ≤ (([] : List Char).filterMap cellValue).length then
      some ((([] : List Char).filterMap cellValue).take 9) else none) = none := rfl
    have er : ∀ r, (if 9 ≤ ((printedRow (fun c => blockChar g[c]) r).filterMap cellValue).length then
      some (((printedRow (fun c => blockChar g[c]) r).filterMap cellValue).take 9) else none) =
        some (gridRow g r) := by
      intro r
      rw [hrow, hlen, if_pos (by omega), List.take_of_length_le (by rw [hlen])]
    simp only [List.filterMap_cons, e0, er, List.filterMap_nil]
    rfl
  obtain ⟨g', e1, e2⟩ := (C18_from_str_block_permissive (displayBlock g)).1 (by rw [hrows]; simp)
  rw [hrows, List.take_of_length_le (by simp)] at e2
  rw [e1, grid_of_rows e2]

/-! ## Non-vacuity -/

/-- Row of a delimited block. -/
def delimitedRow (g : Grid) (r : Fin 9) : List Char :=
  (printedRow (fun c => blockChar g[c]) r).map (fun c => if c = ' ' then '|' else c)

/-- A delimited block with comments and something after it. -/
def delimitedText (g : Grid) : List Char :=
  delimitedRow g 0 ++ ['\n'] ++ delimitedRow g 1 ++ [' ', 'x', '\r', '\n'] ++ delimitedRow g 2 ++ ['\n'] ++
  plusLit ++ ['\n'] ++
  delimitedRow g 3 ++ ['\n'] ++ delimitedRow g 4 ++ ['\t', '9', '\n'] ++ delimitedRow g 5 ++ ['\n'] ++
  plusLit ++ ['\n'] ++
  delimitedRow g 6 ++ ['\n'] ++ delimitedRow g 7 ++ ['\n'] ++ delimitedRow g 8 ++ ['\n', ' ', '\n', 'x', '\n']

/-- Non-vacuity of C16: an actual puzzle in a delimited block with comments. -/
example : fromStrBlock (delimitedText Ex.puzzle) = .ok (.ok Ex.puzzle) := by decide +kernel

/-- Non-vacuity of C16: the text is a block in the sense of the specification. -/
example : IsBlock (delimitedText Ex.puzzle) Ex.puzzle := by
  rw [← C16_from_str_block]; decide +kernel

/-- Non-vacuity of C17: several errors. -/
example :
    fromStrBlock ['1', '2', 'x'] = .ok (.error (.invalidEntry 2 'x')) ∧
    fromStrBlock ['1', '2', '3'] = .ok (.error (.invalidLineLength 0)) ∧
    fromStrBlock ['1', '2', '3', '|', '4', '5', '6', '7'] = .ok (.error .incorrectFieldDelimiter) ∧
    fromStrBlock ['1', '2', '3', '4', '5', '6', '7', '8', '9', '0'] = .ok (.error (.invalidLineLength 0)) ∧
    fromStrBlock ['1', '2', '3', '4', '5', '6', '7', '8', '9', 'x'] =
      .ok (.error (.missingCommentDelimiter 0)) ∧
    fromStrBlock ['1', '2', '3', '4', '5', '6', '7', '8', '9', '\n'] = .ok (.error (.notEnoughRows 2)) ∧
    fromStrBlock (delimitedText Ex.puzzle ++ ['\n']) = .ok (.ok Ex.puzzle) ∧
    fromStrBlock ((delimitedText Ex.puzzle).dropLast.dropLast.dropLast ++ ['z']) = .ok (.error .tooManyRows) := by
  decide +kernel

/-- Non-vacuity of C18 and C19. -/
example : WellFormed Ex.puzzle ∧ fromStrBlockPermissive (delimitedText Ex.puzzle) = .ok (.ok Ex.puzzle) ∧
    fromStrBlockPermissive ['1', '2', 'x', '3', '4', '5', '6', '|', '7', '8', '9', '9', '\n', '1'] =
      .ok (.error 1) := by
  refine ⟨?_, ?_, ?_⟩ <;> decide +kernel

end Verif.Props
