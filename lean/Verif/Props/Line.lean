import Verif.Proofs.LineParse
import Verif.Spec.Examples
import Verif.Spec.Equivalence
import Mathlib.Tactic.Linarith

/-!
# C11-C15, C20, C21: the line format
-/
namespace Verif.Props

open Verif Text Sudoku

/-- C12.  `from_str_line` succeeds exactly on 81 cell characters that are followed by nothing or by a
delimiter (and then anything), and returns the values written. -/
theorem C12_from_str_line (s : List Char) (g : Grid) :
    fromStrLine s = .ok (.ok g) ↔
    ∃ cells rest, s = cells ++ rest ∧ cells.length = 81 ∧ ReadsAs cells g ∧
      (rest = [] ∨ ∃ c r, rest = c :: r ∧ isDelimiter c = true) := by
  rw [fromStrLine_eq_slow]
  constructor
  · intro h
    obtain ⟨cells, rest, rfl, hc, hl, hcase⟩ := decompose s 81
    by_cases h81 : cells.length = 81
    · have hG := readsAs_upd hc h81 (Vector.replicate 81 0)
      rw [slow_full hc h81] at h
      generalize upd (Vector.replicate 81 0) 0 (vals cells) = G at h hG
      split at h
      · cases h
        exact ⟨cells, [], rfl, h81, hG, .inl rfl⟩
      · rename_i c r
        split at h
        · rename_i hd
          cases h
          exact ⟨cells, c :: r, rfl, h81, hG, .inr ⟨c, r, rfl, hd⟩⟩
        · split at h <;> (injection h with h; cases h)
    · exfalso
      have hlt : cells.length < 81 := by omega
      rcases hcase with h' | rfl | ⟨c, r, rfl, hv⟩
      · exact h81 h'
      · rw [slow_short hc hlt (.inl rfl)] at h
        injection h with h; cases h
      · by_cases hb : isBlank c = true
        · rw [slow_short hc hlt (.inr ⟨c, r, rfl, hb⟩)] at h
          injection h with h; cases h
        · rw [slow_invalid hc hlt hv (by simpa using hb)] at h
          injection h with h; cases h
  · rintro ⟨cells, rest, rfl, hl, hr, hrest⟩
    have hc := hr.allCells hl
    have hg := hr.unique (readsAs_upd hc hl (Vector.replicate 81 0))
    rw [slow_full hc hl, ← hg]
    rcases hrest with rfl | ⟨c, r, rfl, hd⟩
    · rfl
    · simp only; rw [if_pos hd]

/-- C13.  The error reported, in terms of the maximal run of cell characters at the start:
* `NotEnoughCells(i)`: exactly `i < 81` cells, then the end, a space or a tab;
* `InvalidEntry {cell: i, ch}`: exactly `i < 81` cells, then the character `ch`, which is neither;
* `TooManyCells`: 82 cells;
* `MissingCommentDelimiter`: 81 cells, then a character which is neither a cell nor a delimiter. -/
theorem C13_from_str_line_error (s : List Char) :
    (∀ i, fromStrLine s = .ok (.error (.notEnoughCells i)) ↔
      ∃ cells rest, s = cells ++ rest ∧ AllCells cells ∧ cells.length = i ∧ i < 81 ∧
        (rest = [] ∨ ∃ c r, rest = c :: r ∧ isBlank c = true)) ∧
    (∀ i ch, fromStrLine s = .ok (.error (.invalidEntry i ch)) ↔
      ∃ cells r, s = cells ++ ch :: r ∧ AllCells cells ∧ cells.length = i ∧ i < 81 ∧
        cellValue ch = none ∧ isBlank ch = false) ∧
    (fromStrLine s = .ok (.error .tooManyCells) ↔
      ∃ cells c r, s = cells ++ c :: r ∧ AllCells cells ∧ cells.length = 81 ∧
        cellValue c ≠ none) ∧
    (fromStrLine s = .ok (.error .missingCommentDelimiter) ↔
      ∃ cells c r, s = cells ++ c :: r ∧ AllCells cells ∧ cells.length = 81 ∧
        cellValue c = none ∧ isDelimiter c = false) := by
  rw [fromStrLine_eq_slow]
  -- delimiters are not cells
  have hdc : ∀ c, cellValue c ≠ none → isDelimiter c = false := by
    intro c hc
    by_contra h
    rw [Bool.not_eq_false] at h
    unfold isDelimiter at h
    simp only [Bool.or_eq_true, decide_eq_true_eq] at h
    rcases h with ((((rfl | rfl) | rfl) | rfl) | rfl) | rfl <;> exact hc (by decide)
  have full : ∀ cells rest, AllCells cells → cells.length = 81 →
      (∃ g, fromStrLineSlow (cells ++ rest) = .ok (.ok g)) ∨
      (∃ c r, rest = c :: r ∧ cellValue c ≠ none ∧ fromStrLineSlow (cells ++ rest) = .ok (.error .tooManyCells)) ∨
      (∃ c r, rest = c :: r ∧ cellValue c = none ∧ isDelimiter c = false ∧
        fromStrLineSlow (cells ++ rest) = .ok (.error .missingCommentDelimiter)) := by
    intro cells rest hc hl
    rw [slow_full hc hl]
    cases rest with
    | nil => exact .inl ⟨_, rfl⟩
    | cons c r =>
      simp only
      by_cases hd : isDelimiter c = true
      · rw [if_pos hd]; exact .inl ⟨_, rfl⟩
      · rw [if_neg hd]
        by_cases hv : cellValue c = none
        · rw [if_neg (by simpa using hv)]
          exact .inr (.inr ⟨c, r, rfl, hv, by simpa using hd, rfl⟩)
        · rw [if_pos hv]
          exact .inr (.inl ⟨c, r, rfl, hv, rfl⟩)
  obtain ⟨cells, rest, rfl, hc, hl, hcase⟩ := decompose s 81
  refine ⟨fun i => ⟨fun h => ?_, ?_⟩, fun i ch => ⟨fun h => ?_, ?_⟩, ⟨fun h => ?_, ?_⟩, ⟨fun h => ?_, ?_⟩⟩
  · by_cases h81 : cells.length = 81
    · rcases full cells rest hc h81 with ⟨g, e⟩ | ⟨c, r, -, -, e⟩ | ⟨c, r, -, -, -, e⟩ <;>
        (rw [e] at h; injection h with h; cases h)
    · have hlt : cells.length < 81 := by omega
      rcases hcase with h' | rfl | ⟨c, r, rfl, hv⟩
      · exact absurd h' h81
      · rw [slow_short hc hlt (.inl rfl)] at h
        injection h with h; injection h with h; injection h with h
        exact ⟨cells, [], rfl, hc, h, by omega, .inl rfl⟩
      · by_cases hb : isBlank c = true
        · rw [slow_short hc hlt (.inr ⟨c, r, rfl, hb⟩)] at h
          injection h with h; injection h with h; injection h with h
          exact ⟨cells, c :: r, rfl, hc, h, by omega, .inr ⟨c, r, rfl, hb⟩⟩
        · rw [slow_invalid hc hlt hv (by simpa using hb)] at h
          injection h with h; cases h
  · rintro ⟨cells', rest', e, hc', rfl, hlt, hr⟩
    rw [e, slow_short hc' hlt hr]
  · by_cases h81 : cells.length = 81
    · rcases full cells rest hc h81 with ⟨g, e⟩ | ⟨c, r, -, -, e⟩ | ⟨c, r, -, -, -, e⟩ <;>
        (rw [e] at h; injection h with h; cases h)
    · have hlt : cells.length < 81 := by omega
      rcases hcase with h' | rfl | ⟨c, r, rfl, hv⟩
      · exact absurd h' h81
      · rw [slow_short hc hlt (.inl rfl)] at h
        injection h with h; cases h
      · by_cases hb : isBlank c = true
        · rw [slow_short hc hlt (.inr ⟨c, r, rfl, hb⟩)] at h
          injection h with h; cases h
        · rw [slow_invalid hc hlt hv (by simpa using hb)] at h
          injection h with h; injection h with h; injection h with h h2
          subst h2
          exact ⟨cells, r, rfl, hc, h, by omega, hv, by simpa using hb⟩
  · rintro ⟨cells', r, e, hc', rfl, hlt, hv, hb⟩
    rw [e, slow_invalid hc' hlt hv hb]
  · by_cases h81 : cells.length = 81
    · rcases full cells rest hc h81 with ⟨g, e⟩ | ⟨c, r, rfl, hv, e⟩ | ⟨c, r, -, -, -, e⟩
      · rw [e] at h; injection h with h; cases h
      · exact ⟨cells, c, r, rfl, hc, h81, hv⟩
      · rw [e] at h; injection h with h; cases h
    · have hlt : cells.length < 81 := by omega
      rcases hcase with h' | rfl | ⟨c, r, rfl, hv⟩
      · exact absurd h' h81
      · rw [slow_short hc hlt (.inl rfl)] at h
        injection h with h; cases h
      · by_cases hb : isBlank c = true
        · rw [slow_short hc hlt (.inr ⟨c, r, rfl, hb⟩)] at h
          injection h with h; cases h
        · rw [slow_invalid hc hlt hv (by simpa using hb)] at h
          injection h with h; cases h
  · rintro ⟨cells', c, r, e, hc', hl', hv⟩
    rw [e, slow_full hc' hl']
    simp only
    rw [if_neg (by simp [hdc c hv]), if_pos hv]
  · by_cases h81 : cells.length = 81
    · rcases full cells rest hc h81 with ⟨g, e⟩ | ⟨c, r, rfl, hv, e⟩ | ⟨c, r, rfl, hv, hd, e⟩
      · rw [e] at h; injection h with h; cases h
      · rw [e] at h; injection h with h; cases h
      · exact ⟨cells, c, r, rfl, hc, h81, hv, hd⟩
    · have hlt : cells.length < 81 := by omega
      rcases hcase with h' | rfl | ⟨c, r, rfl, hv⟩
      · exact absurd h' h81
      · rw [slow_short hc hlt (.inl rfl)] at h
        injection h with h; cases h
      · by_cases hb : isBlank c = true
        · rw [slow_short hc hlt (.inr ⟨c, r, rfl, hb⟩)] at h
          injection h with h; cases h
        · rw [slow_invalid hc hlt hv (by simpa using hb)] at h
          injection h with h; cases h
  · rintro ⟨cells', c, r, e, hc', hl', hv, hd⟩
    rw [e, slow_full hc' hl']
    simp only
    rw [if_neg (by simp [hd]), if_neg (by simpa using hv)]

/-- C14.  The fast path is unobservable. -/
theorem C14_fast_path (s : List Char) : fromStrLine s = fromStrLineSlow s := fromStrLine_eq_slow s

/-- C15.  `from_str_line` never panics, for any text: in particular the slice taken to report an
invalid character starts at a character boundary.  (That the reported character is the one at that
position is part of C13.) -/
theorem C15_from_str_line_total (s : List Char) :
    (∃ g, fromStrLine s = .ok (.ok g)) ∨ (∃ e, fromStrLine s = .ok (.error e)) := by
  rw [fromStrLine_eq_slow]
  obtain ⟨cells, rest, rfl, hc, hl, hcase⟩ := decompose s 81
  by_cases h81 : cells.length = 81
  · rw [slow_full hc h81]
    split
    · exact .inl ⟨_, rfl⟩
    · split
      · exact .inl ⟨_, rfl⟩
      · split <;> exact .inr ⟨_, rfl⟩
  · have hlt : cells.length < 81 := by omega
    rcases hcase with h' | rfl | ⟨c, r, rfl, hv⟩
    · exact absurd h' h81
    · exact .inr ⟨_, slow_short hc hlt (.inl rfl)⟩
    · by_cases hb : isBlank c = true
      · exact .inr ⟨_, slow_short hc hlt (.inr ⟨c, r, rfl, hb⟩)⟩
      · exact .inr ⟨_, slow_invalid hc hlt hv (by simpa using hb)⟩

/-- Non-vacuity of C12-C15: success with a comment, each error, and a three-byte character that is
reported although it starts in the middle of the sudoku. -/
example : fromStrLine ((List.replicate 80 '.') ++ ['7', ';', 'é']) =
    .ok (.ok ((Vector.replicate 81 0).set 80 7)) := by decide +kernel
example : fromStrLine (List.replicate 79 '1') = .ok (.error (.notEnoughCells 79)) := by decide +kernel
example : fromStrLine (List.replicate 82 '1') = .ok (.error .tooManyCells) := by decide +kernel
example : fromStrLine (List.replicate 81 '1' ++ ['x']) = .ok (.error .missingCommentDelimiter) := by
  decide +kernel
example : fromStrLine (List.replicate 80 '1' ++ ['€', 'x']) = .ok (.error (.invalidEntry 80 '€')) := by
  decide +kernel

/-! ### Printing -/

theorem lineByte_spec : ∀ n : Fin 10, ∀ b, b = (match numToOpt (UInt8.ofNat n) with
      | some num => num + '0'.toUInt8
      | none => '.'.toUInt8) →
    b < 128 ∧ cellValue (Char.ofNat b.toNat) = some (UInt8.ofNat n) ∧
      String.utf8EncodeChar (Char.ofNat b.toNat) = [b] := by
  intro n b hb
  subst hb
  revert n
  decide +kernel

/-- The characters of the line of a well-formed grid. -/
def lineChars (g : Grid) : List Char := (toStrLine g).toList.map (fun b => Char.ofNat b.toNat)

theorem toStrLine_get (g : Grid) (i : Nat) (hi : i < 81) : (toStrLine g)[i] =
    (match numToOpt g[i] with
      | some num => num + '0'.toUInt8
      | none => '.'.toUInt8) := by
  unfold toStrLine; rw [Vector.getElem_map]; rfl

theorem lineByte (g : Grid) (hw : WellFormed g) (i : Nat) (hi : i < 81) :
    (toStrLine g)[i] < 128 ∧ cellValue (Char.ofNat (toStrLine g)[i].toNat) = some g[i] ∧
      String.utf8EncodeChar (Char.ofNat (toStrLine g)[i].toNat) = [(toStrLine g)[i]] := by
  have h9 : g[i].toNat ≤ 9 := UInt8.le_iff_toNat_le.1 (hw ⟨i, hi⟩)
  have := lineByte_spec ⟨g[i].toNat, by omega⟩ ((toStrLine g)[i])
    (by rw [toStrLine_get]; simp)
  simpa using this

theorem lineChars_asBytes (g : Grid) (hw : WellFormed g) : asBytes (lineChars g) = (toStrLine g).toList := by
  have : ∀ l : List UInt8, (∀ b ∈ l, String.utf8EncodeChar (Char.ofNat b.toNat) = [b]) →
      asBytes (l.map (fun b => Char.ofNat b.toNat)) = l := by
    intro l
    induction l with
    | nil => intro _; rfl
    | cons b l ih =>
      intro h
      rw [List.map_cons, asBytes_cons, h b (by simp), ih (fun b hb => h b (List.mem_cons_of_mem _ hb))]
      rfl
  apply this
  intro b hb
  obtain ⟨i, hi, rfl⟩ := List.getElem_of_mem hb
  have hi' : i < 81 := by simpa using hi
  have := (lineByte g hw i hi').2.2
  simpa using this

theorem lineDeref_eq (g : Grid) (hw : WellFormed g) : lineDeref (toStrLine g) = .ok (lineChars g) := by
  unfold lineDeref
  have hv : (⟨(toStrLine g).toArray⟩ : ByteArray) = (lineChars g).utf8Encode := by
    have := lineChars_asBytes g hw
    unfold asBytes at this
    rw [List.utf8Encode, this]
    apply ByteArray.ext
    simp [Vector.toList]
  have hs : String.fromUTF8? ⟨(toStrLine g).toArray⟩ = some (String.ofList (lineChars g)) := by
    unfold String.fromUTF8?
    have hvalid : ByteArray.IsValidUTF8 ⟨(toStrLine g).toArray⟩ := by rw [hv]; exact ⟨_, rfl⟩
    rw [dif_pos hvalid]
    congr 1
    apply String.toByteArray_inj.1
    rw [String.toByteArray_ofList]
    exact hv
  rw [hs]
  simp

/-- How a cell is printed in the line format: `'.'` if empty, otherwise its digit. -/
def printedChar (v : UInt8) : Char := if v = 0 then '.' else Char.ofNat (48 + v.toNat)

theorem printed : ∀ n : Fin 10, Char.ofNat (match numToOpt (UInt8.ofNat n) with
      | some num => num + '0'.toUInt8
      | none => '.'.toUInt8).toNat = printedChar (UInt8.ofNat n) := by decide +kernel

theorem lineChars_length (g : Grid) : (lineChars g).length = 81 := by simp [lineChars]

theorem lineChars_get (g : Grid) (hw : WellFormed g) (i : Fin 81) :
    (lineChars g)[i.val]? = some (printedChar g[i]) := by
  have h9 : g[i].toNat ≤ 9 := UInt8.le_iff_toNat_le.1 (hw i)
  have hp := printed ⟨g[i].toNat, by omega⟩
  simp only [UInt8.ofNat_toNat] at hp
  unfold lineChars
  rw [List.getElem?_map, List.getElem?_eq_getElem (by simp), Option.map_some, ← hp]
  have : (toStrLine g).toList[i.val]'(by simp) = (toStrLine g)[i.val] := by simp
  rw [this, toStrLine_get]
  rfl

theorem readsAs_lineChars (g : Grid) (hw : WellFormed g) : ReadsAs (lineChars g) g := by
  intro i
  have h := (lineByte g hw i.val i.isLt).2.1
  unfold lineChars
  rw [List.getElem?_map, List.getElem?_eq_getElem (by simp), Option.map_some, Option.bind_some]
  have : (toStrLine g).toList[i.val]'(by simp) = (toStrLine g)[i.val] := by simp
  rw [this, h]
  rfl

/-- C11.  The line printed for a sudoku is 81 characters, `'.'` or the digit for each cell; reading it
gives the sudoku back, with or without a delimiter and any comment after it. -/
theorem C11_line_round_trip (g : Grid) (hw : WellFormed g) :
    ∃ s, lineDeref (toStrLine g) = .ok s ∧ s.length = 81 ∧
      (∀ i : Fin 81, s[i.val]? = some (printedChar g[i])) ∧
      fromStrLine s = .ok (.ok g) ∧
      ∀ (d : Char) (comment : List Char), isDelimiter d = true →
        fromStrLine (s ++ d :: comment) = .ok (.ok g) := by
  refine ⟨lineChars g, lineDeref_eq g hw, lineChars_length g, lineChars_get g hw, ?_, fun d r hd => ?_⟩
  · rw [C12_from_str_line]
    exact ⟨_, [], by simp, lineChars_length g, readsAs_lineChars g hw, .inl rfl⟩
  · rw [C12_from_str_line]
    exact ⟨_, d :: r, rfl, lineChars_length g, readsAs_lineChars g hw, .inr ⟨d, r, rfl, hd⟩⟩

/-- C11.  `'_'`, `'.'` and `'0'` are interchangeable for empty cells, chosen freely for each cell. -/
theorem C11_placeholders (g : Grid) (hw : WellFormed g) (s : List Char) (hl : s.length = 81)
    (hs : ∀ i : Fin 81, if g[i] = 0 then
        s[i.val]? = some '_' ∨ s[i.val]? = some '.' ∨ s[i.val]? = some '0'
      else s[i.val]? = some (Char.ofNat (48 + g[i].toNat))) :
    fromStrLine s = .ok (.ok g) := by
  rw [C12_from_str_line]
  refine ⟨s, [], by simp, hl, fun i => ?_, .inl rfl⟩
  have hd : ∀ n : Fin 10, cellValue (Char.ofNat (48 + n.val)) = some (UInt8.ofNat n) := by decide +kernel
  have := hs i
  split at this
  · rename_i h0
    rw [h0]
    rcases this with h | h | h <;> rw [h] <;> rfl
  · have h9 : g[i].toNat ≤ 9 := UInt8.le_iff_toNat_le.1 (hw i)
    rw [this, Option.bind_some, hd ⟨g[i].toNat, by omega⟩]
    simp

/-- Non-vacuity: an actual puzzle is well-formed, and its line is the familiar one. -/
example : WellFormed Ex.puzzle ∧ WellFormed Ex.solved := by decide +kernel
example : (lineChars Ex.puzzle).take 9 = ['.', '.', '3', '.', '2', '.', '6', '.', '.'] := by decide +kernel

/-- C20.  Serialising a sudoku and deserialising the result gives it back, in both kinds of format;
human readable formats see the 81-character line, others the 81 bytes. -/
theorem C20_round_trip (g : Grid) (hw : WellFormed g) (humanReadable : Bool) :
    ∃ d, serialize humanReadable g = .ok d ∧
      (match humanReadable, d with
        | true, .str s => s.length = 81 ∧ ∀ i : Fin 81, s[i.val]? = some (printedChar g[i])
        | false, .bytes b => b = g.toList
        | _, _ => False) ∧
      deserialize humanReadable d = .ok (some g) := by
  obtain ⟨s, hs, hl, hp, hr, -⟩ := C11_line_round_trip g hw
  cases humanReadable with
  | true =>
    refine ⟨.str s, by simp [serialize, hs], ⟨hl, hp⟩, ?_⟩
    simp [deserialize, visitStr, hr]
  | false =>
    refine ⟨.bytes g.toList, by simp [serialize], rfl, ?_⟩
    simp only [deserialize, visitBytes]
    rcases C10_from_bytes_slice g.toList with ⟨h, -⟩ | ⟨-, ⟨x, hx, h9⟩, -⟩ | ⟨g', -, h2, -, h4⟩
    · simp at h
    · exfalso
      rw [toList_eq_map] at hx
      simp only [List.mem_map, List.mem_finRange, true_and] at hx
      obtain ⟨i, rfl⟩ := hx
      exact absurd (hw i) (UInt8.not_le.2 h9)
    · rw [h4]
      simp only [Res.ok.injEq, Option.some.injEq]
      exact Vector.toList_inj.1 h2

/-- C20.  The binary visitor accepts exactly 81 bytes of at most 9; the text visitor is
`from_str_line`; data of the wrong kind is rejected. -/
theorem C20_visitors (b : List UInt8) (s : List Char) (g : Grid) :
    (deserialize false (.bytes b) = .ok (some g) ↔ b = g.toList ∧ WellFormed g) ∧
    (deserialize false (.bytes b) = .ok none ↔ b.length ≠ 81 ∨ ∃ x ∈ b, 9 < x) ∧
    (deserialize true (.str s) = .ok (some g) ↔ fromStrLine s = .ok (.ok g)) ∧
    (deserialize true (.str s) = .ok none ↔ ∃ e, fromStrLine s = .ok (.error e)) := by
  refine ⟨?_, ?_, ?_, ?_⟩
  · simp only [deserialize, visitBytes]
    rcases C10_from_bytes_slice b with ⟨h, e⟩ | ⟨h, ⟨x, hx, h9⟩, e⟩ | ⟨g', h1, h2, h3, e⟩ <;> rw [e]
    · simp only [Res.ok.injEq, reduceCtorEq, false_iff, not_and]
      rintro rfl; simp at h
    · simp only [Res.ok.injEq, reduceCtorEq, false_iff, not_and]
      rintro rfl hw
      rw [toList_eq_map] at hx
      simp only [List.mem_map, List.mem_finRange, true_and] at hx
      obtain ⟨i, rfl⟩ := hx
      exact absurd (hw i) (UInt8.not_le.2 h9)
    · simp only [Res.ok.injEq, Option.some.injEq]
      rw [C10_from_bytes] at h3
      constructor
      · rintro rfl; exact ⟨h2.symm, h3.1⟩
      · rintro ⟨rfl, -⟩; exact Vector.toList_inj.1 h2
  · simp only [deserialize, visitBytes]
    rcases C10_from_bytes_slice b with ⟨h, e⟩ | ⟨h, hx, e⟩ | ⟨g', h1, h2, h3, e⟩ <;> rw [e]
    · simp [h]
    · simp only [true_iff]; exact .inr hx
    · simp only [Res.ok.injEq, reduceCtorEq, false_iff, not_or, not_exists, not_and]
      refine ⟨?_, fun x hx => UInt8.not_lt.2 (h1 x hx)⟩
      rw [← h2]; simp
  · simp only [deserialize, visitStr]
    rcases C15_from_str_line_total s with ⟨g', e⟩ | ⟨e', e⟩ <;> rw [e] <;> simp
  · simp only [deserialize, visitStr]
    rcases C15_from_str_line_total s with ⟨g', e⟩ | ⟨e', e⟩ <;> rw [e] <;> simp

/-- Printing one byte is strictly monotone on `0..9`. -/
theorem lineByte_mono : ∀ a b : Fin 10,
    ((UInt8.ofNat a < UInt8.ofNat b) ↔
      (match numToOpt (UInt8.ofNat a) with | some num => num + '0'.toUInt8 | none => '.'.toUInt8) <
      (match numToOpt (UInt8.ofNat b) with | some num => num + '0'.toUInt8 | none => '.'.toUInt8)) := by
  decide +kernel

/-- C21.  The order and the equality of lines are those of the sudokus, and a line is always valid
text of 81 ASCII characters (dereferencing it never panics). -/
theorem C21_line_order (a b : Grid) (ha : WellFormed a) (hb : WellFormed b) :
    arrayCmp (toStrLine a).toList (toStrLine b).toList = Sudoku.cmp a b ∧
    (toStrLine a = toStrLine b ↔ a = b) ∧
    (∃ s, lineDeref (toStrLine a) = .ok s ∧ s.length = 81 ∧ ∀ c ∈ s, c.toNat < 128) := by
  refine ⟨?_, ⟨fun h => ?_, fun h => by rw [h]⟩, lineChars a, lineDeref_eq a ha, lineChars_length a, ?_⟩
  · unfold Sudoku.cmp toStrLine
    rw [Vector.toList_map, Vector.toList_map]
    have key : ∀ (l l' : List UInt8), (∀ x ∈ l, x ≤ 9) → (∀ x ∈ l', x ≤ 9) →
        arrayCmp
          (l.map (fun n => match numToOpt n with | some num => num + '0'.toUInt8 | none => '.'.toUInt8))
          (l'.map (fun n => match numToOpt n with | some num => num + '0'.toUInt8 | none => '.'.toUInt8)) =
          arrayCmp l l' := by
      intro l
      induction l with
      | nil => intro l' _ _; cases l' <;> rfl
      | cons x l ih =>
        intro l' h h'
        cases l' with
        | nil => rfl
        | cons y l' =>
          have hx : x.toNat ≤ 9 := UInt8.le_iff_toNat_le.1 (h x (by simp))
          have hy : y.toNat ≤ 9 := UInt8.le_iff_toNat_le.1 (h' y (by simp))
          have m1 := lineByte_mono ⟨x.toNat, by omega⟩ ⟨y.toNat, by omega⟩
          have m2 := lineByte_mono ⟨y.toNat, by omega⟩ ⟨x.toNat, by omega⟩
          simp only [UInt8.ofNat_toNat] at m1 m2
          simp only [List.map_cons, arrayCmp]
          rw [ih l' (fun z hz => h z (List.mem_cons_of_mem _ hz))
            (fun z hz => h' z (List.mem_cons_of_mem _ hz))]
          simp only [← m1, ← m2]
    have hwf : ∀ g : Grid, WellFormed g → ∀ x ∈ g.toList, x ≤ 9 := by
      intro g hg x hx
      rw [toList_eq_map] at hx
      simp only [List.mem_map, List.mem_finRange, true_and] at hx
      obtain ⟨i, rfl⟩ := hx
      exact hg i
    exact key _ _ (hwf a ha) (hwf b hb)
  · have h1 := readsAs_lineChars a ha
    have h2 := readsAs_lineChars b hb
    rw [show lineChars a = lineChars b by unfold lineChars; rw [h]] at h1
    exact h1.unique h2
  · intro c hc
    obtain ⟨i, hi, rfl⟩ := List.getElem_of_mem hc
    rw [lineChars_length] at hi
    have e := lineChars_get a ha ⟨i, hi⟩
    have h9 : (a[i]).toNat ≤ 9 := UInt8.le_iff_toNat_le.1 (ha ⟨i, hi⟩)
    have hp : ∀ n : Fin 10, (printedChar (UInt8.ofNat n)).toNat < 128 := by decide +kernel
    have := hp ⟨(a[i]).toNat, by omega⟩
    rw [List.getElem?_eq_getElem (by rw [lineChars_length]; exact hi)] at e
    simp only [UInt8.ofNat_toNat] at this
    rw [Option.some.inj e]
    exact this

theorem arrayCmp_first : ∀ (l l' : List UInt8), l.length = l'.length →
    (arrayCmp l l' = .lt ↔ ∃ i : Nat, (∀ j < i, l[j]? = l'[j]?) ∧ ∃ x y, l[i]? = some x ∧ l'[i]? = some y ∧ x < y) ∧
    (arrayCmp l l' = .gt ↔ ∃ i : Nat, (∀ j < i, l'[j]? = l[j]?) ∧ ∃ x y, l'[i]? = some x ∧ l[i]? = some y ∧ x < y) ∧
    (arrayCmp l l' = .eq ↔ l = l') := by
  intro l
  induction l with
  | nil =>
    intro l' h
    cases l' with
    | nil => simp [arrayCmp]
    | cons y l' => simp at h
  | cons x l ih =>
    intro l' h
    cases l' with
    | nil => simp at h
    | cons y l' =>
      obtain ⟨h1, h2, h3⟩ := ih l' (by simpa using h)
      have step : ∀ (u v : UInt8) (m m' : List UInt8),
          (∃ i : Nat, (∀ j < i, (u :: m)[j]? = (v :: m')[j]?) ∧ ∃ x y, (u :: m)[i]? = some x ∧ (v :: m')[i]? = some y ∧ x < y) ↔
          u < v ∨ u = v ∧ ∃ i : Nat, (∀ j < i, m[j]? = m'[j]?) ∧ ∃ x y, m[i]? = some x ∧ m'[i]? = some y ∧ x < y := by
        intro u v m m'
        constructor
        · rintro ⟨i, e, a, b, ha, hb, hab⟩
          cases i with
          | zero =>
            simp only [List.getElem?_cons_zero, Option.some.injEq] at ha hb
            exact Or.inl (ha ▸ hb ▸ hab)
          | succ i =>
            refine Or.inr ⟨by simpa using e 0 (by omega), i, fun j hj => by simpa using e (j + 1) (by omega), a, b, ?_, ?_, hab⟩
            · simpa using ha
            · simpa using hb
        · rintro (hlt | ⟨rfl, i, e, a, b, ha, hb, hab⟩)
          · exact ⟨0, fun j hj => by omega, u, v, by simp, by simp, hlt⟩
          · refine ⟨i + 1, fun j hj => ?_, a, b, by simpa using ha, by simpa using hb, hab⟩
            cases j with
            | zero => simp
            | succ j => simpa using e j (by omega)
      rw [step x y l l', step y x l' l]
      simp only [UInt8.lt_iff_toNat_lt, arrayCmp] at h1 h2 ⊢
      have hxy : x = y ↔ x.toNat = y.toNat := UInt8.toNat_inj.symm
      have hyx : y = x ↔ y.toNat = x.toNat := UInt8.toNat_inj.symm
      split
      · rename_i hlt
        simp only [List.cons.injEq, hxy, hyx]
        refine ⟨by simp [hlt], ?_, ?_⟩
        · simp only [reduceCtorEq, false_iff, not_or, not_and]
          exact ⟨by omega, fun _ => by omega⟩
        · simp only [reduceCtorEq, false_iff, not_and]
          omega
      · split
        · rename_i hlt
          simp only [List.cons.injEq, hxy, hyx]
          refine ⟨?_, by simp [hlt], ?_⟩
          · simp only [reduceCtorEq, false_iff, not_or, not_and]
            exact ⟨by omega, fun _ => by omega⟩
          · simp only [reduceCtorEq, false_iff, not_and]
            omega
        · have he : x.toNat = y.toNat := by omega
          rw [h1, h2, h3]
          obtain rfl := hxy.mpr he
          simp [List.cons.injEq]

theorem arrayCmp_grid (a b : Grid) : (arrayCmp a.toList b.toList = .lt ↔ LexLt a b) ∧
    (arrayCmp a.toList b.toList = .gt ↔ LexLt b a) ∧ (arrayCmp a.toList b.toList = .eq ↔ a = b) := by
  obtain ⟨h1, h2, h3⟩ := arrayCmp_first a.toList b.toList (by simp)
  have get : ∀ (a : Grid) (i : Fin 81), a.toList[i.val]? = some a[i] := fun a i => by simp
  have key : ∀ a b : Grid, (∃ i : Nat, (∀ j < i, a.toList[j]? = b.toList[j]?) ∧
      ∃ x y, a.toList[i]? = some x ∧ b.toList[i]? = some y ∧ x < y) ↔ LexLt a b := by
    intro a b
    constructor
    · rintro ⟨i, e, x, y, hx, hy, hxy⟩
      have hi : i < 81 := by
        have := (List.getElem?_eq_some_iff.mp hx).1
        simpa using this
      refine ⟨⟨i, hi⟩, fun j hj => ?_, ?_⟩
      · have := e j.val hj
        rw [get a j, get b j] at this
        exact Option.some.inj this
      · rw [get a ⟨i, hi⟩] at hx
        rw [get b ⟨i, hi⟩] at hy
        rw [Option.some.inj hx, Option.some.inj hy]
        exact hxy
    · rintro ⟨i, e, h⟩
      refine ⟨i.val, fun j hj => ?_, a[i], b[i], get a i, get b i, h⟩
      have hj' : j < 81 := by omega
      have := e ⟨j, hj'⟩ hj
      rw [get a ⟨j, hj'⟩, get b ⟨j, hj'⟩, this]
  refine ⟨h1.trans (key a b), h2.trans (key b a), h3.trans ⟨fun h => Vector.toList_inj.mp h, fun h => by rw [h]⟩⟩

/-- C21.  This order is the lexicographic one: the first cell in which two sudokus differ decides, and an empty cell
comes before all digits; for the lines the first differing character decides. -/
theorem C21_lexicographic (a b : Grid) (ha : WellFormed a) (hb : WellFormed b) :
    ((Sudoku.cmp a b = .lt ↔ LexLt a b) ∧ (Sudoku.cmp a b = .gt ↔ LexLt b a) ∧ (Sudoku.cmp a b = .eq ↔ a = b)) ∧
    (LexLt (toStrLine a) (toStrLine b) ↔ LexLt a b) := by
  refine ⟨arrayCmp_grid a b, ?_⟩
  rw [← (arrayCmp_grid _ _).1, (C21_line_order a b ha hb).1]
  exact (arrayCmp_grid a b).1

/-- Non-vacuity: the order of two actual sudokus. -/
example : WellFormed Ex.puzzle ∧ WellFormed Ex.solved ∧ LexLt Ex.puzzle Ex.solved :=
  ⟨by decide +kernel, by decide +kernel, by unfold LexLt; decide +kernel⟩

/-- Non-vacuity: the order of two actual sudokus. -/
example : Sudoku.cmp Ex.puzzle Ex.solved = .lt := by decide +kernel

end Verif.Props
