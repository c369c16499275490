import Verif.Model.Errors
import Verif.Props.Line
import Verif.Props.Block

/-!
# Properties of the errors of the parsers
-/
namespace Verif.Props

open Verif Verif.Text Verif.Sudoku Verif.Errors

/-- The row, column and block of an existing cell. -/
theorem invalidEntry_place (ch : Char) : ∀ i : Fin 81, (invalidEntry i ch).cell.toNat = i.val ∧
    (invalidEntry i ch).row.toNat = rowOf i ∧ (invalidEntry i ch).col.toNat = colOf i ∧
    ∃ b, (invalidEntry i ch).block = .ok b ∧ b.toNat = blockOf i := by
  have key : ∀ i : Fin 81, (UInt8.ofNat i).toNat = i.val ∧ (UInt8.ofNat i / 9).toNat = rowOf i ∧
      (UInt8.ofNat i % 9).toNat = colOf i ∧
      PosTables.block[(UInt8.ofNat i).toNat]? = some (blockOf i) ∧ blockOf i < 256 := by decide +kernel
  intro i
  obtain ⟨h1, h2, h3, h4, h5⟩ := key i
  refine ⟨h1, h2, h3, UInt8.ofNat (blockOf i), ?_, ?_⟩
  · unfold InvalidEntry.block invalidEntry
    rw [h4]
  · rw [UInt8.toNat_ofNat_of_lt' h5]

theorem block_entry_lt {s : List Char} {i : Nat} {ch : Char} (h : fromStrBlock s = .ok (.error (.invalidEntry i ch))) :
    i < 81 := by
  obtain ⟨before, after, block, rest, rows, h1, -, h3, h4⟩ := (C17_from_str_block_error_partial s _).mp h
  have hr := BlockMatches.rows h3
  unfold BlockFault at h4
  split at h4
  · exact h4.elim
  · cases h4.2
  · cases h4
  · obtain ⟨t1, t2, body, tail, vs, g1, -, g3, g4⟩ := h4
    have hv := Matches.length g3
    unfold RowFault at g4
    split at g4
    · exact g4.elim
    · rcases g4 with g4 | g4
      · cases g4.2
      · cases g4.2.2
    · cases g4
    · cases g4.2
      have e1 : (rowTemplate (usesDelimiters (lines s))).count true = 9 := by
        cases usesDelimiters (lines s) <;> rfl
      have e2 : (blockTemplate (usesDelimiters (lines s))).count true = 9 := by
        cases usesDelimiters (lines s) <;> rfl
      rw [g1, List.count_append, List.count_cons] at e1
      rw [h1, List.count_append, List.count_cons] at e2
      simp at e1 e2
      omega
    · cases g4.2
  · cases h4.2

/-- **C60**: the cell of an `InvalidEntry` that `from_str_line` or `from_str_block` returns exists, and `row`, `col` and
`block` return its row, column and block, counted from 0. -/
theorem C60_entry (s : List Char) (i : Nat) (ch : Char) (h : fromStrLine s = .ok (.error (.invalidEntry i ch)) ∨
      fromStrBlock s = .ok (.error (.invalidEntry i ch))) :
    i < 81 ∧ (invalidEntry i ch).cell.toNat = i ∧ (invalidEntry i ch).row.toNat = rowOf i ∧
    (invalidEntry i ch).col.toNat = colOf i ∧ ∃ b, (invalidEntry i ch).block = .ok b ∧ b.toNat = blockOf i := by
  have hi : i < 81 := by
    rcases h with h | h
    · obtain ⟨_, _, -, -, -, h1, -⟩ := ((C13_from_str_line_error s).2.1 i ch).mp h
      exact h1
    · exact block_entry_lt h
  exact ⟨hi, invalidEntry_place ch ⟨i, hi⟩⟩

/-! ## Messages -/

theorem showNum_inj {n m : Nat} (h : showNum n = showNum m) : n = m := by
  have h1 := congrArg (fun l => Nat.ofDigitChars 10 l 0) h
  simpa [showNum, Nat.ofDigitChars_ten_toDigits] using h1

theorem showNum_digit {n : Nat} {c : Char} (h : c ∈ showNum n) : c.isDigit = true :=
  Nat.isDigit_of_mem_toDigits (by decide) (by decide) h

/-- A number followed by something else can be read off. -/
theorem showNum_append {n m : Nat} {c c' : Char} {l l' : List Char} (hc : c.isDigit = false) (hc' : c'.isDigit = false)
    (h : showNum n ++ c :: l = showNum m ++ c' :: l') : n = m ∧ c :: l = c' :: l' := by
  have key : ∀ (a b : List Char), (∀ x ∈ a, x.isDigit = true) → (∀ x ∈ b, x.isDigit = true) →
      a ++ c :: l = b ++ c' :: l' → a = b ∧ c :: l = c' :: l' := by
    intro a
    induction a with
    | nil =>
      intro b _ hb h
      cases b with
      | nil => exact ⟨rfl, h⟩
      | cons x b =>
        simp only [List.nil_append, List.cons_append, List.cons.injEq] at h
        rw [h.1, hb x (by simp)] at hc
        cases hc
    | cons y a ih =>
      intro b ha hb h
      cases b with
      | nil =>
        simp only [List.nil_append, List.cons_append, List.cons.injEq] at h
        rw [← h.1, ha y (by simp)] at hc'
        cases hc'
      | cons x b =>
        simp only [List.cons_append, List.cons.injEq] at h
        obtain ⟨h1, h2⟩ := ih b (fun z hz => ha z (by simp [hz])) (fun z hz => hb z (by simp [hz])) h.2
        exact ⟨by rw [h.1, h1], h2⟩
  obtain ⟨h1, h2⟩ := key _ _ (fun x hx => showNum_digit hx) (fun x hx => showNum_digit hx) h
  exact ⟨showNum_inj h1, h2⟩

theorem showNum_head {n : Nat} : ∃ c l, showNum n = c :: l ∧ c.isDigit = true := by
  cases h : showNum n with
  | nil => exact absurd h Nat.toDigits_ne_nil
  | cons c l => exact ⟨c, l, rfl, showNum_digit (h ▸ List.mem_cons_self)⟩

theorem entry_inj {i j : Fin 81} {ch ch' : Char} (h : (invalidEntry i ch).display = (invalidEntry j ch').display) :
    i = j ∧ ch = ch' := by
  unfold InvalidEntry.display at h
  rw [(invalidEntry_place ch i).1, (invalidEntry_place ch' j).1] at h
  simp only [List.append_assoc] at h
  have h := List.append_cancel_left h
  rw [show msgInvalid = ' ' :: "contains invalid character '".toList from rfl] at h
  obtain ⟨h1, h2⟩ := showNum_append (by decide) (by decide) h
  refine ⟨Fin.ext h1, ?_⟩
  simp only [List.cons.injEq, true_and] at h2
  have h2 := List.append_cancel_left h2
  simpa [invalidEntry] using h2

private theorem text0 : msgCell =
    ['c', 'e', 'l', 'l', ' '] := rfl
private theorem text1 : msgInvalid =
    [' ', 'c', 'o', 'n', 't', 'a', 'i', 'n', 's', ' ', 'i', 'n', 'v', 'a', 'l', 'i', 'd', ' ', 'c', 'h', 'a', 'r',
     'a', 'c', 't', 'e', 'r', ' ', '\''] := rfl
private theorem text2 : msgQuote =
    ['\''] := rfl
private theorem text3 : msgEntries =
    ['b', 'y', 't', 'e', ' ', 'a', 'r', 'r', 'a', 'y', ' ', 'c', 'o', 'n', 't', 'a', 'i', 'n', 's', ' ', 'e', 'n',
     't', 'r', 'i', 'e', 's', ' ', '>', '9'] := rfl
private theorem text4 : msgLength =
    ['b', 'y', 't', 'e', ' ', 's', 'l', 'i', 'c', 'e', ' ', 's', 'h', 'o', 'u', 'l', 'd', ' ', 'h', 'a', 'v', 'e',
     ' ', 'l', 'e', 'n', 'g', 't', 'h', ' ', '8', '1', ',', ' ', 'f', 'o', 'u', 'n', 'd', ' '] := rfl
private theorem text5 : msgLine =
    ['a', ' ', 's', 'u', 'd', 'o', 'k', 'u', ' ', 'l', 'i', 'n', 'e', ' ', 's', 'h', 'o', 'u', 'l', 'd', ' ', 'h',
     'a', 'v', 'e', ' ', '9', ' ', 'e', 'n', 't', 'r', 'i', 'e', 's', ',', ' ', 'f', 'o', 'u', 'n', 'd', ' '] := rfl
private theorem text6 : msgRows =
    ['a', ' ', 's', 'u', 'd', 'o', 'k', 'u', ' ', 's', 'h', 'o', 'u', 'l', 'd', ' ', 'h', 'a', 'v', 'e', ' ', '9',
     ' ', 'r', 'o', 'w', 's', ',', ' ', 'f', 'o', 'u', 'n', 'd', ' ', 'o', 'n', 'l', 'y', ' '] := rfl
private theorem text7 : msgField =
    ['i', 'n', 'c', 'o', 'n', 's', 'i', 's', 't', 'e', 'n', 't', ' ', 'f', 'i', 'e', 'l', 'd', ' ', 'd', 'e', 'l',
     'i', 'm', 'i', 't', 'e', 'r', 's'] := rfl
private theorem text8 : msgTenth =
    ['a', ' ', 's', 'u', 'd', 'o', 'k', 'u', ' ', 's', 'h', 'o', 'u', 'l', 'd', ' ', 'h', 'a', 'v', 'e', ' ', '9',
     ' ', 'r', 'o', 'w', 's', ',', ' ', 'f', 'o', 'u', 'n', 'd', ' ', 'a', ' ', '1', '0', 't', 'h'] := rfl
private theorem text9 : msgCommentLine =
    ['m', 'i', 's', 's', 'i', 'n', 'g', ' ', 'c', 'o', 'm', 'm', 'e', 'n', 't', ' ', 'd', 'e', 'l', 'i', 'm', 'i',
     't', 'e', 'r', ' ', 'i', 'n', ' ', 'l', 'i', 'n', 'e', ' '] := rfl
private theorem text10 : msgContains =
    ['s', 'u', 'd', 'o', 'k', 'u', ' ', 'c', 'o', 'n', 't', 'a', 'i', 'n', 's', ' '] := rfl
private theorem text11 : msgInstead =
    [' ', 'c', 'e', 'l', 'l', 's', ' ', 'i', 'n', 's', 't', 'e', 'a', 'd', ' ', 'o', 'f', ' ', 'r', 'e', 'q', 'u',
     'i', 'r', 'e', 'd', ' ', '8', '1'] := rfl
private theorem text12 : msgMore =
    ['s', 'u', 'd', 'o', 'k', 'u', ' ', 'c', 'o', 'n', 't', 'a', 'i', 'n', 's', ' ', 'm', 'o', 'r', 'e', ' ', 't',
     'h', 'a', 'n', ' ', '8', '1', ' ', 'c', 'e', 'l', 'l', 's', ' ', 'o', 'r', ' ', 'i', 's', ' ', 'm', 'i', 's',
     's', 'i', 'n', 'g', ' ', 'c', 'o', 'm', 'm', 'e', 'n', 't', ' ', 'd', 'e', 'l', 'i', 'm', 'i', 't', 'e',
     'r'] := rfl
private theorem text13 : msgComment =
    ['m', 'i', 's', 's', 'i', 'n', 'g', ' ', 'c', 'o', 'm', 'm', 'e', 'n', 't', ' ', 'd', 'e', 'l', 'i', 'm', 'i',
     't', 'e', 'r'] := rfl

/-- **C60**: different errors of `from_str_line` have different messages. -/
theorem C60_line_messages (s s' : List Char) (e e' : LineParseError) (h : fromStrLine s = .ok (.error e))
    (h' : fromStrLine s' = .ok (.error e')) (hm : displayLineError e = displayLineError e') : e = e' := by
  have sc : ∀ n, msgContains ++ showNum n ++ msgInstead =
      msgMore → False := by
    intro n h
    obtain ⟨c, l, h1, h2⟩ := @showNum_head n
    rw [h1, show msgMore =
      msgContains ++ 'm' :: "ore than 81 cells or is missing comment delimiter".toList from rfl,
      List.append_assoc] at h
    have h := List.append_cancel_left h
    simp only [List.cons_append, List.cons.injEq] at h
    rw [h.1] at h2
    exact absurd h2 (by decide)
  cases e with
  | invalidEntry i ch =>
    cases e' with
    | invalidEntry j ch' =>
      have hi := (C60_entry s i ch (Or.inl h)).1
      have hj := (C60_entry s' j ch' (Or.inl h')).1
      obtain ⟨h1, h2⟩ := entry_inj (i := ⟨i, hi⟩) (j := ⟨j, hj⟩) hm
      rw [h2, Fin.mk.inj h1]
    | notEnoughCells m => simp [displayLineError, InvalidEntry.display, text0, text10, text12, text13] at hm
    | tooManyCells => simp [displayLineError, InvalidEntry.display, text0, text10, text12, text13] at hm
    | missingCommentDelimiter => simp [displayLineError, InvalidEntry.display, text0, text10, text12, text13] at hm
  | notEnoughCells n =>
    cases e' with
    | invalidEntry j ch' => simp [displayLineError, InvalidEntry.display, text0, text10, text12, text13] at hm
    | notEnoughCells m =>
      simp only [displayLineError, List.append_assoc] at hm
      have h := List.append_cancel_left hm
      rw [show msgInstead = ' ' :: "cells instead of required 81".toList from rfl] at h
      rw [(showNum_append (by decide) (by decide) h).1]
    | tooManyCells => exact (sc n hm).elim
    | missingCommentDelimiter => simp [displayLineError, InvalidEntry.display, text0, text10, text12, text13] at hm
  | tooManyCells =>
    cases e' with
    | invalidEntry j ch' => simp [displayLineError, InvalidEntry.display, text0, text10, text12, text13] at hm
    | notEnoughCells m => exact (sc m hm.symm).elim
    | tooManyCells => rfl
    | missingCommentDelimiter => simp [displayLineError, InvalidEntry.display, text0, text10, text12, text13] at hm
  | missingCommentDelimiter =>
    cases e' with
    | invalidEntry j ch' => simp [displayLineError, InvalidEntry.display, text0, text10, text12, text13] at hm
    | notEnoughCells m => simp [displayLineError, InvalidEntry.display, text0, text10, text12, text13] at hm
    | tooManyCells => simp [displayLineError, InvalidEntry.display, text0, text10, text12, text13] at hm
    | missingCommentDelimiter => rfl

/-- **C60**: different errors of `from_str_block` have different messages. -/
theorem C60_block_messages (s s' : List Char) (e e' : BlockParseError) (h : fromStrBlock s = .ok (.error e))
    (h' : fromStrBlock s' = .ok (.error e')) (hm : displayBlockError e = displayBlockError e') : e = e' := by
  have same : ∀ (l : List Char) (n m : Nat), l ++ showNum n = l ++ showNum m → n = m := fun l n m h =>
    showNum_inj (List.append_cancel_left h)
  cases e with
  | invalidEntry i ch =>
    cases e' with
    | invalidEntry j ch' =>
      have hi := (C60_entry s i ch (Or.inr h)).1
      have hj := (C60_entry s' j ch' (Or.inr h')).1
      obtain ⟨h1, h2⟩ := entry_inj (i := ⟨i, hi⟩) (j := ⟨j, hj⟩) hm
      rw [h2, Fin.mk.inj h1]
    | _ => simp [displayBlockError, InvalidEntry.display, text0, text5, text6, text7, text8, text9] at hm
  | invalidLineLength n =>
    cases e' with
    | invalidLineLength m => rw [same _ _ _ hm]
    | invalidEntry j ch' => simp [displayBlockError, InvalidEntry.display, text0, text5, text6, text7, text8, text9] at hm
    | _ => simp [displayBlockError, InvalidEntry.display, text0, text5, text6, text7, text8, text9] at hm
  | notEnoughRows n =>
    cases e' with
    | notEnoughRows m => rw [same _ _ _ hm]
    | invalidEntry j ch' => simp [displayBlockError, InvalidEntry.display, text0, text5, text6, text7, text8, text9] at hm
    | tooManyRows => simp [displayBlockError, InvalidEntry.display, text0, text5, text6, text7, text8, text9] at hm
    | _ => simp [displayBlockError, InvalidEntry.display, text0, text5, text6, text7, text8, text9] at hm
  | incorrectFieldDelimiter =>
    cases e' with
    | incorrectFieldDelimiter => rfl
    | invalidEntry j ch' => simp [displayBlockError, InvalidEntry.display, text0, text5, text6, text7, text8, text9] at hm
    | _ => simp [displayBlockError, InvalidEntry.display, text0, text5, text6, text7, text8, text9] at hm
  | tooManyRows =>
    cases e' with
    | tooManyRows => rfl
    | notEnoughRows m => simp [displayBlockError, InvalidEntry.display, text0, text5, text6, text7, text8, text9] at hm
    | invalidEntry j ch' => simp [displayBlockError, InvalidEntry.display, text0, text5, text6, text7, text8, text9] at hm
    | _ => simp [displayBlockError, InvalidEntry.display, text0, text5, text6, text7, text8, text9] at hm
  | missingCommentDelimiter n =>
    cases e' with
    | missingCommentDelimiter m => rw [same _ _ _ hm]
    | invalidEntry j ch' => simp [displayBlockError, InvalidEntry.display, text0, text5, text6, text7, text8, text9] at hm
    | _ => simp [displayBlockError, InvalidEntry.display, text0, text5, text6, text7, text8, text9] at hm

/-- **C60**: the two errors of `from_bytes_slice` have different messages. -/
theorem C60_bytes_messages (e e' : FromBytesSliceError) (h : displayFromBytesSlice e = displayFromBytesSlice e') :
    e = e' := by
  cases e with
  | fromBytes =>
    cases e' with
    | fromBytes => rfl
    | wrongLength m => simp [displayFromBytesSlice, displayFromBytes, text3, text4] at h
  | wrongLength n =>
    cases e' with
    | fromBytes => simp [displayFromBytesSlice, displayFromBytes, text3, text4] at h
    | wrongLength m => rw [showNum_inj (List.append_cancel_left h)]

/-- **C60**: the messages of `from_bytes_slice`, `from_str_line` and `from_str_block_permissive` tell the number of bytes,
of cells before the end or the comment, and of rows that were found.

Missing: `from_str_block`, where the numbers are wrong (`C60_line_length_false`, `C60_rows_false`). -/
theorem C60_numbers_partial :
    (∀ b : List UInt8, b.length ≠ 81 → ∃ e, fromBytesSlice b = .error e ∧
      displayFromBytesSlice e = "byte slice should have length 81, found ".toList ++ Nat.toDigits 10 b.length) ∧
    (∀ cells rest : List Char, AllCells cells → cells.length < 81 → (rest = [] ∨ ∃ c r, rest = c :: r ∧ isBlank c = true) →
      ∃ e, fromStrLine (cells ++ rest) = .ok (.error e) ∧ displayLineError e =
        "sudoku contains ".toList ++ Nat.toDigits 10 cells.length ++ " cells instead of required 81".toList) ∧
    (∀ (s : List Char), (permissiveRows s).length < 9 → ∃ n, fromStrBlockPermissive s = .ok (.error n) ∧
      displayNotEnoughRows n =
        "input ended after ".toList ++ Nat.toDigits 10 (permissiveRows s).length ++ " valid rows".toList) := by
  refine ⟨fun b hb => ?_, fun cells rest h1 h2 h3 => ?_, fun s hs => ?_⟩
  · rcases C10_from_bytes_slice b with ⟨-, h⟩ | ⟨h, -⟩ | ⟨g, -, h, -⟩
    · exact ⟨_, h, rfl⟩
    · exact absurd h hb
    · exact absurd (by rw [← h]; simp) hb
  · exact ⟨.notEnoughCells cells.length,
      ((C13_from_str_line_error _).1 _).mpr ⟨cells, rest, rfl, h1, rfl, h2, h3⟩, rfl⟩
  · exact ⟨_, (C18_from_str_block_permissive s).2 hs, rfl⟩

/-- The message for a row that has not nine entries does not tell their number but the index of the row: for a first row
of ten entries it says `found 0`. -/
theorem C60_line_length_false : ∃ e, fromStrBlock "1234567891".toList = .ok (.error e) ∧
    displayBlockError e = "a sudoku line should have 9 entries, found 0".toList := by
  exact ⟨.invalidLineLength 0, by decide +kernel, by decide +kernel⟩

/-- The message for eight rows says that nine were found. -/
theorem C60_rows_false : ∃ s e, (lines s).length = 8 ∧ fromStrBlock s = .ok (.error e) ∧
    displayBlockError e = "a sudoku should have 9 rows, found only 9".toList :=
  ⟨(List.replicate 8 "123456789\n".toList).flatten, .notEnoughRows 9, by decide +kernel, by decide +kernel,
    by decide +kernel⟩

/-! ## Cases that meet the hypotheses -/

/-- C60: an invalid character in a line, and its message. -/
example : fromStrLine "12x".toList = .ok (.error (.invalidEntry 2 'x')) ∧
    displayLineError (.invalidEntry 2 'x') = "cell 2 contains invalid character 'x'".toList := by decide +kernel

/-- C60: an invalid character in the second row of a block. -/
example : fromStrBlock "123456789\n4567é".toList = .ok (.error (.invalidEntry 13 'é')) ∧
    displayBlockError (.invalidEntry 13 'é') = "cell 13 contains invalid character 'é'".toList ∧
    (invalidEntry 13 'é').row = 1 ∧ (invalidEntry 13 'é').col = 4 ∧ (invalidEntry 13 'é').block = .ok 1 := by
  decide +kernel

/-- C60: the other errors occur. -/
example : fromStrLine "12 ".toList = .ok (.error (.notEnoughCells 2)) ∧
    displayLineError (.notEnoughCells 2) = "sudoku contains 2 cells instead of required 81".toList ∧
    fromStrBlock "123456789x".toList = .ok (.error (.missingCommentDelimiter 0)) ∧
    fromStrBlockPermissive "1 2 3 4 5 6 7 8 9".toList = .ok (.error 1) ∧
    displayNotEnoughRows 1 = "input ended after 1 valid rows".toList ∧ [1, 2, (3 : UInt8)].length ≠ 81 := by
  decide +kernel

end Verif.Props
