import Verif.Model.Text
import Verif.Props.Board

namespace Verif.Sudoku

open Verif Text

/-- UTF-8: an ASCII character is one byte, any other starts with a byte of at least 128. -/
theorem encode_cases (c : Char) :
    (c.toNat < 128 ∧ c.utf8Size = 1 ∧ String.utf8EncodeChar c = [UInt8.ofNat c.toNat]) ∨
    (128 ≤ c.toNat ∧ ∃ b bs, String.utf8EncodeChar c = b :: bs ∧ 128 ≤ b.toNat) := by
  unfold String.utf8EncodeChar Char.utf8Size
  have e : c.toNat = c.val.toNat := rfl
  by_cases h1 : c.val.toNat ≤ 0x7f
  · left
    rw [e]
    refine ⟨by omega, ?_, ?_⟩
    · rw [if_pos]; exact UInt32.le_iff_toNat_le.2 h1
    · simp only [h1, if_true]
  · right
    refine ⟨by omega, ?_⟩
    simp only [h1, if_false]
    split
    · refine ⟨_, _, rfl, ?_⟩
      simp; omega
    · split
      · refine ⟨_, _, rfl, ?_⟩
        simp; omega
      · refine ⟨_, _, rfl, ?_⟩
        simp; omega

/-- What the parsers make of a byte. -/
def cellByte (b : UInt8) : Option UInt8 :=
  if b = '_'.toUInt8 ∨ b = '.'.toUInt8 then some 0
  else if '0'.toUInt8 ≤ b ∧ b ≤ '9'.toUInt8 then some (b - '0'.toUInt8)
  else none

def blankByte (b : UInt8) : Bool := decide (b = ' '.toUInt8 ∨ b = '\t'.toUInt8)

theorem le_toNat {a b : Char} : a ≤ b ↔ a.toNat ≤ b.toNat := by
  rw [Char.le_def, UInt32.le_iff_toNat_le]; rfl

theorem cellValue_none_of_ge {c : Char} (h : 128 ≤ c.toNat) : cellValue c = none := by
  unfold cellValue
  rw [if_neg, if_neg]
  · rw [le_toNat, le_toNat]
    have : '9'.toNat = 57 := rfl
    omega
  · rintro (rfl | rfl) <;> revert h <;> decide

theorem isDelimiter_of_ge {c : Char} (h : 128 ≤ c.toNat) : isDelimiter c = false := by
  unfold isDelimiter
  rw [Bool.eq_false_iff]
  intro h'
  simp only [Bool.or_eq_true, decide_eq_true_eq] at h'
  rcases h' with ((((rfl | rfl) | rfl) | rfl) | rfl) | rfl <;> revert h <;> decide

theorem isBlank_of_ge {c : Char} (h : 128 ≤ c.toNat) : isBlank c = false := by
  unfold isBlank
  rw [Bool.eq_false_iff]
  intro h'
  simp only [Bool.or_eq_true, decide_eq_true_eq] at h'
  rcases h' with rfl | rfl <;> revert h <;> decide

theorem bytes_ascii : ∀ n : Fin 128,
    cellByte (UInt8.ofNat n) = cellValue (Char.ofNat n) ∧
    validEnding (some (UInt8.ofNat n)) = isDelimiter (Char.ofNat n) ∧
    blankByte (UInt8.ofNat n) = isBlank (Char.ofNat n) := by
  decide +kernel

theorem bytes_high : ∀ n : Fin 256, 128 ≤ n.val →
    cellByte (UInt8.ofNat n) = none ∧ validEnding (some (UInt8.ofNat n)) = false ∧
    blankByte (UInt8.ofNat n) = false := by
  decide +kernel

theorem fast_byte : ∀ n : Fin 256,
    (fastByte (UInt8.ofNat n) ≤ 9 ↔ cellByte (UInt8.ofNat n) ≠ none) ∧
    (∀ v, cellByte (UInt8.ofNat n) = some v → fastByte (UInt8.ofNat n) = v) := by
  have h : ∀ n : Fin 256, (fastByte (UInt8.ofNat n) ≤ 9 ↔ cellByte (UInt8.ofNat n) ≠ none) ∧
    ((cellByte (UInt8.ofNat n)).getD (fastByte (UInt8.ofNat n)) = fastByte (UInt8.ofNat n)) := by
    decide +kernel
  intro n
  refine ⟨(h n).1, fun v hv => ?_⟩
  have := (h n).2
  rw [hv] at this
  exact this.symm

theorem fastByte_spec (b : UInt8) :
    (fastByte b ≤ 9 ↔ cellByte b ≠ none) ∧ (∀ v, cellByte b = some v → fastByte b = v) := by
  have := fast_byte ⟨b.toNat, b.toNat_lt⟩
  simpa using this

/-- The first byte of a character is classified like the character. -/
theorem first_byte (c : Char) : ∃ b bs, String.utf8EncodeChar c = b :: bs ∧
    cellByte b = cellValue c ∧ validEnding (some b) = isDelimiter c ∧ blankByte b = isBlank c ∧
    ((cellValue c ≠ none) → bs = [] ∧ c.utf8Size = 1) := by
  rcases encode_cases c with ⟨h, hs, e⟩ | ⟨h, b, bs, e, hb⟩
  · have := bytes_ascii ⟨c.toNat, h⟩
    simp only [Char.ofNat_toNat] at this
    exact ⟨_, _, e, this.1, this.2.1, this.2.2, fun _ => ⟨rfl, hs⟩⟩
  · have := bytes_high ⟨b.toNat, b.toNat_lt⟩ hb
    simp only [UInt8.ofNat_toNat] at this
    exact ⟨b, bs, e, by rw [this.1, cellValue_none_of_ge h],
      by rw [this.2.1, isDelimiter_of_ge h], by rw [this.2.2, isBlank_of_ge h],
      fun hc => absurd (cellValue_none_of_ge h) hc⟩

/-- Overwrite the cells from `i` on by `vs`. -/
def upd (g : Grid) (i : Nat) (vs : List UInt8) : Grid :=
  Vector.ofFn (fun j : Fin 81 => if i ≤ j.val then vs.getD (j.val - i) g[j] else g[j])

theorem upd_get (g : Grid) (i : Nat) (vs : List UInt8) (j : Nat) (hj : j < 81) :
    (upd g i vs)[j] = if i ≤ j then vs.getD (j - i) g[j] else g[j] := by
  unfold upd
  simp

theorem upd_nil (g : Grid) (i : Nat) : upd g i [] = g := by
  apply Vector.ext
  intro j hj
  rw [upd_get]
  simp

theorem upd_set (g : Grid) (i : Nat) (hi : i < 81) (v : UInt8) (vs : List UInt8) :
    upd (g.set i v) (i + 1) vs = upd g i (v :: vs) := by
  apply Vector.ext
  intro j hj
  rw [upd_get, upd_get, Vector.getElem_set]
  rcases Nat.lt_trichotomy i j with h | h | h
  · obtain ⟨k, rfl⟩ : ∃ k, j = i + 1 + k := ⟨j - (i + 1), by omega⟩
    rw [if_pos (show i + 1 ≤ i + 1 + k by omega), if_pos (show i ≤ i + 1 + k by omega),
      if_neg (show ¬ i = i + 1 + k by omega)]
    have : i + 1 + k - i = (i + 1 + k - (i + 1)) + 1 := by omega
    rw [this]
    simp
  · subst h
    rw [if_neg (show ¬ i + 1 ≤ i by omega), if_pos rfl, if_pos (le_refl _)]
    simp
  · rw [if_neg (show ¬ i + 1 ≤ j by omega), if_neg (show ¬ i = j by omega), if_neg (show ¬ i ≤ j by omega)]

def vals (cs : List Char) : List UInt8 := cs.filterMap cellValue

theorem _root_.Verif.Text.AllCells.cons {c cs} : AllCells (c :: cs) ↔ cellValue c ≠ none ∧ AllCells cs := by
  simp [AllCells]

theorem asBytes_cons (c : Char) (s : List Char) :
    asBytes (c :: s) = String.utf8EncodeChar c ++ asBytes s := rfl

theorem asBytes_append (a b : List Char) : asBytes (a ++ b) = asBytes a ++ asBytes b := by
  unfold asBytes; rw [List.flatMap_append]

theorem length_asBytes {cs : List Char} (h : AllCells cs) : (asBytes cs).length = cs.length := by
  induction cs with
  | nil => rfl
  | cons c cs ih =>
    rw [AllCells.cons] at h
    obtain ⟨b, bs, e, -, -, -, hb⟩ := first_byte c
    rw [asBytes_cons, e, (hb h.1).1, List.length_append, ih h.2]
    simp; omega

theorem sliceFrom_cells {cs : List Char} (h : AllCells cs) (rest : List Char) :
    sliceFrom (cs ++ rest) cs.length = .ok rest := by
  induction cs with
  | nil => unfold sliceFrom; rfl
  | cons c cs ih =>
    rw [AllCells.cons] at h
    obtain ⟨b, bs, e, -, -, -, hb⟩ := first_byte c
    rw [List.cons_append, List.length_cons]
    unfold sliceFrom
    rw [(hb h.1).2, if_neg (by omega)]
    exact ih h.2

theorem lineLoop_cells (s : List Char) : ∀ (cs : List Char) (bs : List UInt8) (i : Nat) (g : Grid),
    AllCells cs → i + cs.length ≤ 81 →
    lineLoop s (asBytes cs ++ bs) i g = lineLoop s bs (i + cs.length) (upd g i (vals cs)) := by
  intro cs
  induction cs with
  | nil => intro bs i g _ _; rw [show vals [] = [] from rfl, upd_nil]; rfl
  | cons c cs ih =>
    intro bs i g h hi
    rw [AllCells.cons] at h
    obtain ⟨b, bs', e, hc, -, -, hb⟩ := first_byte c
    rw [asBytes_cons, e, (hb h.1).1]
    simp only [List.length_cons] at hi
    obtain ⟨v, hv⟩ := Option.ne_none_iff_exists'.1 h.1
    have hvals : vals (c :: cs) = v :: vals cs := by simp [vals, hv]
    simp only [List.cons_append, List.nil_append]
    conv_lhs => unfold lineLoop
    rw [dif_pos (by omega)]
    rw [hvals, ← upd_set _ _ (by omega), List.length_cons, show i + (cs.length + 1) = i + 1 + cs.length by omega]
    rw [hv] at hc
    unfold cellByte at hc
    split at hc
    · rename_i h1
      rw [if_pos h1, ih _ _ _ h.2 (by omega)]
      cases hc; rfl
    · rename_i h1
      rw [if_neg h1]
      split at hc
      · rename_i h2
        rw [if_pos h2, ih _ _ _ h.2 (by omega)]
        cases hc; rfl
      · cases hc

theorem vals_getElem {cs : List Char} (h : AllCells cs) (i : Nat) :
    (vals cs)[i]? = (cs[i]?).bind cellValue := by
  induction cs generalizing i with
  | nil => simp [vals]
  | cons c cs ih =>
    rw [AllCells.cons] at h
    obtain ⟨v, hv⟩ := Option.ne_none_iff_exists'.1 h.1
    have hvals : vals (c :: cs) = v :: vals cs := by simp [vals, hv]
    rw [hvals]
    cases i with
    | zero => simp [hv]
    | succ i => simpa using ih h.2 i

theorem readsAs_upd {cs : List Char} (h : AllCells cs) (hl : cs.length = 81) (g : Grid) :
    ReadsAs cs (upd g 0 (vals cs)) := by
  intro i
  have hi : i.val < cs.length := by omega
  have e := vals_getElem h i.val
  obtain ⟨v, hv⟩ := Option.ne_none_iff_exists'.1 (h cs[i.val] (List.getElem_mem hi))
  rw [List.getElem?_eq_getElem hi] at e ⊢
  simp only [Option.bind_some, hv] at e ⊢
  have : (upd g 0 (vals cs))[i] = (upd g 0 (vals cs))[i.val] := rfl
  rw [this, upd_get, if_pos (by omega), List.getD_eq_getElem?_getD, Nat.sub_zero, e]
  rfl

theorem _root_.Verif.Text.ReadsAs.unique {cs : List Char} {g g' : Grid} (h : ReadsAs cs g) (h' : ReadsAs cs g') : g = g' := by
  apply Vector.ext
  intro i hi
  have := (h ⟨i, hi⟩).symm.trans (h' ⟨i, hi⟩)
  simpa using this

theorem _root_.Verif.Text.ReadsAs.allCells {cs : List Char} {g : Grid} (h : ReadsAs cs g) (hl : cs.length = 81) : AllCells cs := by
  intro c hc
  obtain ⟨i, hi, rfl⟩ := List.getElem_of_mem hc
  have := h ⟨i, by omega⟩
  simp only [List.getElem?_eq_getElem hi, Option.bind_some] at this
  rw [this]; simp

/-! ### The shapes of the input -/

theorem zero_add_len (n : Nat) : 0 + n = n := by omega

theorem slow_prefix {cells rest : List Char} (hc : AllCells cells) (hl : cells.length ≤ 81) :
    lineLoop (cells ++ rest) (asBytes (cells ++ rest)) 0 (Vector.replicate 81 0) =
    lineLoop (cells ++ rest) (asBytes rest) cells.length (upd (Vector.replicate 81 0) 0 (vals cells)) := by
  rw [asBytes_append, lineLoop_cells _ _ _ _ _ hc (by omega), zero_add_len]

theorem lineLoop_full (s : List Char) (bs : List UInt8) (g : Grid) : lineLoop s bs 81 g = .ok (.ok (81, g)) := by
  cases bs <;> simp [lineLoop]

theorem byte_81 {cells rest : List Char} (hc : AllCells cells) (hl : cells.length = 81) :
    (asBytes (cells ++ rest))[81]? = (asBytes rest)[0]? := by
  rw [asBytes_append, List.getElem?_append_right (by rw [length_asBytes hc]; omega), length_asBytes hc, hl]

theorem slow_full {cells rest : List Char} (hc : AllCells cells) (hl : cells.length = 81) :
    fromStrLineSlow (cells ++ rest) =
      match rest with
      | [] => .ok (.ok (upd (Vector.replicate 81 0) 0 (vals cells)))
      | c :: _ => if isDelimiter c = true then .ok (.ok (upd (Vector.replicate 81 0) 0 (vals cells)))
          else if cellValue c ≠ none then .ok (.error .tooManyCells)
          else .ok (.error .missingCommentDelimiter) := by
  unfold fromStrLineSlow
  simp only
  rw [slow_prefix hc (by omega), hl, lineLoop_full, byte_81 hc hl]
  simp only [Res.ok_bind, ne_eq, not_true_eq_false, if_false]
  cases rest with
  | nil => rfl
  | cons c rest =>
    obtain ⟨b, bs, e, h1, h2, -, -⟩ := first_byte c
    rw [asBytes_cons, e]
    simp only [List.cons_append, List.getElem?_cons_zero]
    rw [← h2, ← h1]
    unfold validEnding
    simp only [decide_eq_true_eq]
    split
    · rfl
    · congr 1
      unfold cellByte
      rw [eq_iff_iff]
      constructor
      · rintro (h | h | h)
        · rw [if_pos (Or.inl h)]; simp
        · rw [if_pos (Or.inr h)]; simp
        · split
          · simp
          · simp
      · intro h
        by_contra hn
        push Not at hn
        rw [if_neg (by tauto), if_neg (by rw [not_and_or]; by_cases h' : '0'.toUInt8 ≤ b <;> tauto)] at h
        exact h rfl

theorem slow_short {cells rest : List Char} (hc : AllCells cells) (hl : cells.length < 81)
    (hr : rest = [] ∨ ∃ c r, rest = c :: r ∧ isBlank c = true) :
    fromStrLineSlow (cells ++ rest) = .ok (.error (.notEnoughCells cells.length)) := by
  unfold fromStrLineSlow
  simp only
  rw [slow_prefix hc (by omega)]
  rcases hr with rfl | ⟨c, r, rfl, hb⟩
  · simp only [asBytes, List.flatMap_nil, lineLoop, Res.ok_bind]
    rw [if_pos (by omega)]
  · obtain ⟨b, bs, e, h1, h2, h3, -⟩ := first_byte c
    rw [asBytes_cons, e, List.cons_append]
    have hcv : cellValue c = none := by
      unfold isBlank at hb
      simp only [Bool.or_eq_true, decide_eq_true_eq] at hb
      rcases hb with rfl | rfl <;> decide
    rw [hcv] at h1
    unfold cellByte at h1
    unfold lineLoop
    rw [dif_pos hl]
    split at h1
    · cases h1
    rename_i hn1
    split at h1
    · cases h1
    rename_i hn2
    rw [if_neg hn1, if_neg hn2]
    rw [hb] at h3
    unfold blankByte at h3
    rw [decide_eq_true_eq] at h3
    rw [if_pos h3]
    rfl

theorem slow_invalid {cells r : List Char} {c : Char} (hc : AllCells cells) (hl : cells.length < 81)
    (hv : cellValue c = none) (hb : isBlank c = false) :
    fromStrLineSlow (cells ++ c :: r) = .ok (.error (.invalidEntry cells.length c)) := by
  unfold fromStrLineSlow
  simp only
  rw [slow_prefix hc (by omega)]
  obtain ⟨b, bs, e, h1, h2, h3, -⟩ := first_byte c
  rw [asBytes_cons, e, List.cons_append]
  rw [hv] at h1
  unfold cellByte at h1
  unfold lineLoop
  rw [dif_pos hl]
  split at h1
  · cases h1
  rename_i hn1
  split at h1
  · cases h1
  rename_i hn2
  rw [if_neg hn1, if_neg hn2]
  rw [hb] at h3
  unfold blankByte at h3
  rw [decide_eq_false_iff_not] at h3
  rw [if_neg h3, sliceFrom_cells hc]
  rfl

/-- Every text starts with a maximal run of at most 81 cells. -/
theorem decompose (s : List Char) (n : Nat) : ∃ cells rest, s = cells ++ rest ∧ AllCells cells ∧
    cells.length ≤ n ∧ (cells.length = n ∨ rest = [] ∨ ∃ c r, rest = c :: r ∧ cellValue c = none) := by
  induction n generalizing s with
  | zero => exact ⟨[], s, rfl, by simp [AllCells], by simp, .inl rfl⟩
  | succ n ih =>
    cases s with
    | nil => exact ⟨[], [], rfl, by simp [AllCells], by simp, .inr (.inl rfl)⟩
    | cons c s =>
      by_cases h : cellValue c = none
      · exact ⟨[], c :: s, rfl, by simp [AllCells], by simp, .inr (.inr ⟨c, s, rfl, h⟩)⟩
      · obtain ⟨cells, rest, rfl, h1, h2, h3⟩ := ih s
        refine ⟨c :: cells, rest, rfl, AllCells.cons.2 ⟨h, h1⟩, by simp; omega, ?_⟩
        rcases h3 with h3 | h3
        · left; simp [h3]
        · exact .inr h3

/-- Byte `k` of a run of cells encodes character `k`. -/
theorem byte_key (cs : List Char) (k : Nat) (h : AllCells cs) (hk : k < cs.length) :
    ((asBytes cs)[k]?).bind cellByte = (cs[k]?).bind cellValue := by
  induction cs generalizing k with
  | nil => simp at hk
  | cons c cs ih =>
    rw [AllCells.cons] at h
    obtain ⟨b, bs, e, h1, -, -, hb⟩ := first_byte c
    rw [asBytes_cons, e, (hb h.1).1]
    cases k with
    | zero => simp [h1]
    | succ k =>
      simp only [List.length_cons, Nat.add_lt_add_iff_right] at hk
      simpa using ih k h.2 hk

theorem fast_eq (s : List Char) (g : Grid) (h : fastPath (asBytes s) = some g) :
    fromStrLineSlow s = .ok (.ok g) := by
  unfold fastPath at h
  split at h
  · cases h
  rename_i hlen
  simp only at h
  split at h
  · rename_i hend
    rw [Props.C10_from_bytes] at h
    obtain ⟨hw, rfl⟩ := h
    obtain ⟨cells, rest, rfl, hc, hl, hcase⟩ := decompose s 81
    have hcell : ∀ i (hi : i < 81), cellByte ((asBytes (cells ++ rest))[i]'(by omega)) ≠ none := by
      intro i hi
      rw [← (fastByte_spec _).1]
      have := hw ⟨i, hi⟩
      simpa using this
    have hl81 : cells.length = 81 := by
      rcases hcase with h | rfl | ⟨c, r, rfl, hv⟩
      · exact h
      · rw [List.append_nil, length_asBytes hc] at hlen; omega
      · by_contra hne
        have hlt : cells.length < 81 := by omega
        apply hcell cells.length hlt
        obtain ⟨b, bs, e, h1, -, -, -⟩ := first_byte c
        have hlc := length_asBytes hc
        simp only [asBytes_append, asBytes_cons, e]
        rw [List.getElem_append_right (by omega)]
        simp only [hlc, Nat.sub_self, List.cons_append, List.getElem_cons_zero]
        rw [h1, hv]
    rw [slow_full hc hl81]
    rw [byte_81 hc hl81] at hend
    have hg : upd (Vector.replicate 81 0) 0 (vals cells) = Vector.ofFn fun i : Fin 81 =>
        fastByte ((asBytes (cells ++ rest))[i.val]'(by omega)) := by
      apply (readsAs_upd hc hl81 _).unique
      intro i
      obtain ⟨v, hv⟩ := Option.ne_none_iff_exists'.1 (hcell i.val i.isLt)
      have e2 : (Vector.ofFn fun i : Fin 81 =>
        fastByte ((asBytes (cells ++ rest))[i.val]'(by omega)))[i] = v := by
        rw [show ∀ (w : Vector UInt8 81), w[i] = w[i.val] from fun _ => rfl, Vector.getElem_ofFn]
        exact (fastByte_spec _).2 v hv
      rw [e2, ← byte_key cells i.val hc (by omega), ← hv]
      have hi : i.val < (asBytes cells).length := by rw [length_asBytes hc]; omega
      have e3 := asBytes_append cells rest
      have e4 : (asBytes cells)[i.val]? = (asBytes (cells ++ rest))[i.val]? := by
        rw [e3, List.getElem?_append_left hi]
      rw [e4, List.getElem?_eq_getElem (by omega), Option.bind_some]
    rw [← hg]
    cases rest with
    | nil => rfl
    | cons c r =>
      obtain ⟨b, bs, e, -, h2, -, -⟩ := first_byte c
      rw [asBytes_cons, e] at hend
      simp only [List.cons_append, List.getElem?_cons_zero] at hend
      rw [h2] at hend
      simp only
      rw [if_pos hend]
  · cases h

theorem fromStrLine_eq_slow (s : List Char) : fromStrLine s = fromStrLineSlow s := by
  unfold fromStrLine
  split
  · rename_i g h
    exact (fast_eq s g h).symm
  · rfl

end Verif.Sudoku
