import Verif.Proofs.PrintTable

/-! Reading a printed grid state. -/
namespace Verif.Strat

open Verif Verif.GridText

/-! ## Words -/

theorem splitWhitespaceAux_eq (l : List Char) : ∀ acc : List Char,
    splitWhitespaceAux acc l = (List.splitOnPPrepend Text.isWhitespace l acc).filter (fun w => w ≠ []) := by
  induction l with
  | nil =>
    intro acc
    unfold splitWhitespaceAux
    rw [List.splitOnPPrepend_nil]
    by_cases h : acc = []
    · simp [h]
    · simp [h]
  | cons c l ih =>
    intro acc
    unfold splitWhitespaceAux
    rw [List.splitOnPPrepend_cons_eq_if, ← List.splitOnPPrepend_nil_right]
    by_cases h : Text.isWhitespace c = true
    · rw [if_pos h, if_pos h, ih, List.filter_cons]
      by_cases h0 : acc = []
      · simp [h0]
      · simp [h0]
    · rw [if_neg h, if_neg h, ih]

theorem splitWhitespace_eq (s : List Char) : splitWhitespace s = words s := splitWhitespaceAux_eq s []

theorem words_nil : words [] = [] := rfl

theorem go_append {sep : Char} (h : Text.isWhitespace sep = true) (b : List Char) (a : List Char) : ∀ acc : List Char,
    List.splitOnPPrepend Text.isWhitespace (a ++ sep :: b) acc =
      List.splitOnPPrepend Text.isWhitespace a acc ++ List.splitOnPPrepend Text.isWhitespace b [] := by
  induction a with
  | nil =>
    intro acc
    rw [List.nil_append, List.splitOnPPrepend_cons_eq_if, if_pos h]
    rfl
  | cons c a ih =>
    intro acc
    rw [List.cons_append, List.splitOnPPrepend_cons_eq_if, List.splitOnPPrepend_cons_eq_if,
      ← List.splitOnPPrepend_nil_right, ← List.splitOnPPrepend_nil_right]
    by_cases hc : Text.isWhitespace c = true
    · rw [if_pos hc, if_pos hc, ih]; rfl
    · rw [if_neg hc, if_neg hc, ih]

theorem words_append {sep : Char} (h : Text.isWhitespace sep = true) (a b : List Char) :
    words (a ++ sep :: b) = words a ++ words b := by
  unfold words
  rw [← List.filter_append]
  congr 1
  exact go_append h b a []

theorem words_single {w : List Char} (h0 : w ≠ []) (h : ∀ c ∈ w, Text.isWhitespace c = false) : words w = [w] := by
  have key : ∀ (l acc : List Char), (∀ c ∈ l, Text.isWhitespace c = false) →
      List.splitOnPPrepend Text.isWhitespace l acc = [acc.reverse ++ l] := by
    intro l
    induction l with
    | nil => intro acc _; simp
    | cons c l ih =>
      intro acc hl
      rw [List.splitOnPPrepend_cons_eq_if, if_neg (by simp [hl c (by simp)]), ih _ (fun c hc => hl c (by simp [hc]))]
      simp
  unfold words
  rw [show w.splitOnP Text.isWhitespace = _ from key w [] h]
  simp [h0]

theorem space_ws : Text.isWhitespace ' ' = true := by decide
theorem newline_ws : Text.isWhitespace '\n' = true := by decide

theorem words_spaces (n : Nat) : ∀ b, words (List.replicate n ' ' ++ b) = words b := by
  induction n with
  | zero => intro b; rfl
  | succ n ih =>
    intro b
    rw [List.replicate_succ, List.cons_append]
    have := words_append space_ws [] (List.replicate n ' ' ++ b)
    rw [List.nil_append] at this
    rw [this, ih]
    rfl

theorem words_lines (s : List Char) : (Text.lines s).flatMap words = words s := by
  have key : ∀ (l acc : List Char), (Text.linesAux acc l).flatMap words = words (acc.reverse ++ l) := by
    intro l
    induction l with
    | nil =>
      intro acc
      unfold Text.linesAux
      by_cases h : acc = []
      · simp [h, words_nil]
      · simp [h]
    | cons c l ih =>
      intro acc
      unfold Text.linesAux
      by_cases h : c = '\n'
      · subst h
        rw [if_pos rfl, List.flatMap_cons, ih, words_append newline_ws]
        congr 1
        split
        · rename_i acc'
          rw [List.reverse_cons, words_append (by decide), words_nil, List.append_nil]
        · rfl
      · rw [if_neg h, ih]
        simp
  exact key s []

/-! ## The words of the table -/

/-- A text that is one word. -/
def IsWord (w : List Char) : Prop := w ≠ [] ∧ ∀ c ∈ w, Text.isWhitespace c = false

theorem words_cell {w : List Char} (h : IsWord w) (n : Nat) (b : List Char) :
    words ([' '] ++ padded n w ++ [' '] ++ b) = w :: words b := by
  unfold padded
  have e : [' '] ++ (w ++ List.replicate (n - w.length) ' ') ++ [' '] ++ b =
      [] ++ ' ' :: (w ++ ' ' :: (List.replicate (n - w.length) ' ' ++ b)) := by
    simp only [List.append_assoc, List.nil_append, List.cons_append, List.singleton_append]
    congr 2
    rw [← List.cons_append, ← List.replicate_succ, List.replicate_succ', List.append_assoc]
    rfl
  rw [e, words_append space_ws, words_append space_ws, words_spaces, words_single h.1 h.2]
  rfl

theorem bar_word : IsWord ['│'] := ⟨by simp, by decide⟩

theorem words_bar_space (b : List Char) : words ('│' :: ' ' :: b) = ['│'] :: words b := by
  have := words_append space_ws ['│'] b
  rw [List.singleton_append] at this
  rw [this, words_single bar_word.1 bar_word.2]
  rfl

variable {e : Fin 9 → Fin 9 → List Char}

theorem words_row (h : ∀ r c, IsWord (e r c)) (row : Fin 9) (b : List Char) : words (rowText e row ++ '\n' :: b) =
    [['│'], e row 0, e row 1, e row 2, ['│'], e row 3, e row 4, e row 5, ['│'], e row 6, e row 7, e row 8, ['│']] ++
      words b := by
  have bar : ∀ (n : Nat) (w x : List Char), IsWord w → words (['│'] ++ (([' '] ++ padded n w ++ [' ']) ++ x)) =
      ['│'] :: w :: words x := by
    intro n w x hw
    rw [← words_cell hw n x]
    show words ('│' :: ' ' :: (padded n w ++ [' '] ++ x)) = _
    rw [words_bar_space]
    rfl
  have cell : ∀ (n : Nat) (w x : List Char), IsWord w → words (([' '] ++ padded n w ++ [' ']) ++ x) = w :: words x :=
    fun n w x hw => words_cell hw n x
  have last : words (['│'] ++ '\n' :: b) = ['│'] :: words b := by
    rw [words_append newline_ws, words_single bar_word.1 bar_word.2]; rfl
  unfold rowText framed
  generalize hf : (fun col => [' '] ++ padded (width e col) (e row col) ++ [' ']) = f
  have bar' : ∀ c x, words (['│'] ++ (f c ++ x)) = ['│'] :: e row c :: words x := by
    intro c x; rw [← hf]; exact bar _ _ _ (h row c)
  have cell' : ∀ c x, words (f c ++ x) = e row c :: words x := by
    intro c x; rw [← hf]; exact cell _ _ _ (h row c)
  simp only [List.append_assoc]
  rw [bar', cell', cell', bar', cell', cell', bar', cell', cell', last]
  rfl

theorem mem_framed {l m r x : Char} {f : Fin 9 → List Char} (h : x ∈ framed l m r f) :
    x = l ∨ x = m ∨ x = r ∨ ∃ c, x ∈ f c := by
  unfold framed at h
  simp only [List.mem_append, List.mem_singleton] at h
  rcases h with ((((((((((((h | h) | h) | h) | h) | h) | h) | h) | h) | h) | h) | h) | h)
  all_goals first
    | exact Or.inl h
    | exact Or.inr (Or.inl h)
    | exact Or.inr (Or.inr (Or.inl h))
    | exact Or.inr (Or.inr (Or.inr ⟨_, h⟩))

theorem rule_word (l m r : Char) (hl : Text.isWhitespace l = false) (hm : Text.isWhitespace m = false)
    (hr : Text.isWhitespace r = false) : IsWord (rule e l m r) := by
  refine ⟨by simp [rule, framed], fun c hc => ?_⟩
  rcases mem_framed hc with rfl | rfl | rfl | ⟨col, hc⟩
  · exact hl
  · exact hm
  · exact hr
  · rw [(List.mem_replicate.mp hc).2]; decide

theorem words_rule (l m r : Char) (hl : Text.isWhitespace l = false) (hm : Text.isWhitespace m = false)
    (hr : Text.isWhitespace r = false) (b : List Char) : words (rule e l m r ++ '\n' :: b) = rule e l m r :: words b := by
  have := rule_word (e := e) l m r hl hm hr
  rw [words_append newline_ws, words_single this.1 this.2]
  rfl

theorem isEntry_bar : isEntry ['│'] = false := by decide

theorem isEntry_rule (l m r : Char) (hl : Char.isDigit l = false) : isEntry (rule e l m r) = false := by
  have : rule e l m r ≠ ['_'] := by
    intro h
    have := congrArg List.length h
    simp [rule, framed] at this
  unfold isEntry
  rw [Bool.or_eq_false_iff]
  refine ⟨by simpa using this, ?_⟩
  unfold rule framed
  simp [hl]

/-- All rows, one after the other. -/
def rowMajor (e : Fin 9 → Fin 9 → List Char) : List (List Char) :=
  (List.finRange 9).flatMap (fun r => (List.finRange 9).map (e r))

theorem entry_words (h : ∀ r c, IsWord (e r c)) (P : List Char → Bool) (he : ∀ r c, P (e r c) = true)
    (hbar : P ['│'] = false) (hrule : ∀ l m r, l = '┌' ∨ l = '├' ∨ l = '└' → P (rule e l m r) = false) :
    (words (table e)).filter P = rowMajor e := by
  have split : ∀ l : List Char, ∀ b, l ++ ['\n'] ++ b = l ++ '\n' :: b := fun l b => by simp
  have row : ∀ r b, (words (rowText e r ++ ['\n'] ++ b)).filter P = (List.finRange 9).map (e r) ++ (words b).filter P := by
    intro r b
    rw [split, words_row h, List.filter_append]
    congr 1
    have f9 : List.finRange 9 = [0, 1, 2, 3, 4, 5, 6, 7, 8] := by decide
    rw [f9]
    simp only [List.filter_cons, he, hbar, List.filter_nil, List.map_cons, List.map_nil, if_true]
    rfl
  have rl : ∀ l m r b, (l = '┌' ∨ l = '├' ∨ l = '└') → Text.isWhitespace m = false → Text.isWhitespace r = false →
      (words (rule e l m r ++ ['\n'] ++ b)).filter P = (words b).filter P := by
    intro l m r b hl hm hr
    have hlw : Text.isWhitespace l = false := by rcases hl with rfl | rfl | rfl <;> decide
    rw [split, words_rule l m r hlw hm hr, List.filter_cons, hrule l m r hl]
    rfl
  have f9 : List.finRange 9 = [0, 1, 2, 3, 4, 5, 6, 7, 8] := by decide
  unfold table tableLines rowMajor
  simp only [List.flatMap_cons, List.flatMap_nil]
  rw [rl _ _ _ _ (by simp) (by decide) (by decide), row, row, row, rl _ _ _ _ (by simp) (by decide) (by decide), row, row,
    row, rl _ _ _ _ (by simp) (by decide) (by decide), row, row, row, rl _ _ _ _ (by simp) (by decide) (by decide),
    words_nil, List.filter_nil]
  simp only [f9, List.flatMap_cons, List.flatMap_nil]

/-! ## The lines of the table -/

theorem lines_flatMap {ls : List (List Char)} (h : ∀ l ∈ ls, '\n' ∉ l ∧ '\r' ∉ l) :
    Text.lines (ls.flatMap (fun l => l ++ ['\n'])) = ls := by
  have one : ∀ (l acc rest : List Char), '\n' ∉ l → '\r' ∉ l → '\r' ∉ acc → Text.linesAux acc (l ++ '\n' :: rest) =
      (acc.reverse ++ l) :: Text.linesAux [] rest := by
    intro l
    induction l with
    | nil =>
      intro acc rest _ _ ha
      rw [List.nil_append, List.append_nil]
      conv_lhs => unfold Text.linesAux
      rw [if_pos rfl]
      congr 1
      split
      · simp at ha
      · rfl
    | cons c l ih =>
      intro acc rest h1 h2 h3
      simp only [List.mem_cons, not_or] at h1 h2
      rw [List.cons_append]
      conv_lhs => unfold Text.linesAux
      rw [if_neg (Ne.symm h1.1), ih _ _ h1.2 h2.2]
      · simp
      · simp only [List.mem_cons, not_or]; exact ⟨h2.1, h3⟩
  unfold Text.lines
  induction ls with
  | nil => rfl
  | cons l ls ih =>
    have := h l (by simp)
    rw [List.flatMap_cons, List.append_assoc, List.singleton_append, one _ _ _ this.1 this.2 (by simp),
      ih fun l hl => h l (by simp [hl])]
    rfl

theorem lines_table (h : ∀ r c, IsWord (e r c)) : Text.lines (table e) = tableLines e := by
  have hn : ∀ w, IsWord w → '\n' ∉ w ∧ '\r' ∉ w := by
    intro w hw
    refine ⟨fun hh => ?_, fun hh => ?_⟩
    · exact absurd (hw.2 _ hh) (by decide)
    · exact absurd (hw.2 _ hh) (by decide)
  have row : ∀ r, '\n' ∉ rowText e r ∧ '\r' ∉ rowText e r := by
    intro r
    have key : ∀ x, x = '\n' ∨ x = '\r' → x ∉ rowText e r := by
      intro x hx hm
      rcases mem_framed hm with rfl | rfl | rfl | ⟨c, hc⟩
      · revert hx; decide
      · revert hx; decide
      · revert hx; decide
      · unfold padded at hc
        simp only [List.mem_append, List.mem_singleton] at hc
        rcases hc with (hc | hc | hc) | hc
        · subst hc; revert hx; decide
        · rcases hx with rfl | rfl
          · exact (hn _ (h r c)).1 hc
          · exact (hn _ (h r c)).2 hc
        · rw [(List.mem_replicate.mp hc).2] at hx; revert hx; decide
        · subst hc; revert hx; decide
    exact ⟨key _ (Or.inl rfl), key _ (Or.inr rfl)⟩
  unfold table
  apply lines_flatMap
  intro l hl
  unfold tableLines at hl
  simp only [List.mem_cons, List.not_mem_nil, or_false] at hl
  rcases hl with rfl | rfl | rfl | rfl | rfl | rfl | rfl | rfl | rfl | rfl | rfl | rfl | rfl
  · exact hn _ (rule_word _ _ _ (by decide) (by decide) (by decide))
  · exact row _
  · exact row _
  · exact row _
  · exact hn _ (rule_word _ _ _ (by decide) (by decide) (by decide))
  · exact row _
  · exact row _
  · exact row _
  · exact hn _ (rule_word _ _ _ (by decide) (by decide) (by decide))
  · exact row _
  · exact row _
  · exact row _
  · exact hn _ (rule_word _ _ _ (by decide) (by decide) (by decide))

/-- All lines are as wide as the columns with two spaces each and the frame. -/
theorem length_tableLines {l : List Char} (h : l ∈ tableLines e) :
    l.length = ((List.finRange 9).map (fun c => width e c + 2)).sum + 4 := by
  have f9 : List.finRange 9 = [0, 1, 2, 3, 4, 5, 6, 7, 8] := by decide
  have fr : ∀ a b c f, (∀ col, (f col : List Char).length = width e col + 2) → (framed a b c f).length =
      ((List.finRange 9).map (fun c => width e c + 2)).sum + 4 := by
    intro a b c f hf
    rw [f9]
    simp only [framed, List.length_append, hf, List.length_singleton, List.map_cons, List.map_nil, List.sum_cons, List.sum_nil]
    omega
  have row : ∀ r, (rowText e r).length = ((List.finRange 9).map (fun c => width e c + 2)).sum + 4 := by
    intro r
    apply fr
    intro col
    have := length_le_width e r col
    simp only [padded, List.length_append, List.length_singleton, List.length_replicate]
    omega
  have rl : ∀ a b c, (rule e a b c).length = ((List.finRange 9).map (fun c => width e c + 2)).sum + 4 := by
    intro a b c
    apply fr
    intro col
    rw [List.length_replicate]
    omega
  unfold tableLines at h
  simp only [List.mem_cons, List.not_mem_nil, or_false] at h
  rcases h with rfl | rfl | rfl | rfl | rfl | rfl | rfl | rfl | rfl | rfl | rfl | rfl | rfl
  · exact rl _ _ _
  · exact row _
  · exact row _
  · exact row _
  · exact rl _ _ _
  · exact row _
  · exact row _
  · exact row _
  · exact rl _ _ _
  · exact row _
  · exact row _
  · exact row _
  · exact rl _ _ _

/-! ## The entries -/

theorem digitChar_word : ∀ d : Digit, Text.isWhitespace (digitChar d) = false := by decide

theorem digitChar_isDigit : ∀ d : Digit, (digitChar d).isDigit = true := by decide

theorem digitChar_bytes : ∀ d : Digit, String.utf8EncodeChar (digitChar d) = [d.get + 48] := by decide +kernel

theorem entry_word (l : List Digit) : IsWord (entry l) := by
  unfold entry
  split
  · exact ⟨by simp, by decide⟩
  · rename_i h
    refine ⟨by simpa using h, fun c hc => ?_⟩
    obtain ⟨d, -, rfl⟩ := List.mem_map.mp hc
    exact digitChar_word d

theorem entry_isEntry (l : List Digit) : isEntry (entry l) = true := by
  unfold isEntry entry
  split
  · simp
  · rw [Bool.or_eq_true]
    right
    rw [List.all_eq_true]
    intro c hc
    obtain ⟨d, -, rfl⟩ := List.mem_map.mp hc
    exact digitChar_isDigit d

theorem decimal_digits (l : List Digit) : ∀ n : Nat, ∃ m, (l.map digitChar).foldl
    (fun acc c => acc.bind fun n => if '0' ≤ c ∧ c ≤ '9' then some (10 * n + (c.toNat - '0'.toNat)) else none) (some n) =
      some m ∧ m < (n + 1) * 10 ^ l.length := by
  induction l with
  | nil => intro n; exact ⟨n, rfl, by simp⟩
  | cons d l ih =>
    intro n
    have hd : ∀ d : Digit, ('0' ≤ digitChar d ∧ digitChar d ≤ '9') ∧ (digitChar d).toNat - '0'.toNat ≤ 9 := by decide
    obtain ⟨m, h1, h2⟩ := ih (10 * n + ((digitChar d).toNat - '0'.toNat))
    refine ⟨m, ?_, ?_⟩
    · rw [List.map_cons, List.foldl_cons, Option.bind_some, if_pos (hd d).1]
      exact h1
    · refine h2.trans_le ?_
      rw [List.length_cons, pow_succ', ← Nat.mul_assoc]
      apply Nat.mul_le_mul_right
      have := (hd d).2
      omega

theorem stripPlus_cons {c : Char} (h : c ≠ '+') (l : List Char) : stripPlus (c :: l) = c :: l := by
  unfold stripPlus
  split
  · rename_i hh; exact absurd (List.cons.inj hh).1 h
  · rfl

theorem entry_parses {l : List Digit} (h : l.length ≤ 9) :
    (entry l = ['_'] || parsesAsU32 (entry l)) = true := by
  unfold entry
  split
  · simp
  · rename_i h0
    rw [Bool.or_eq_true]
    right
    obtain ⟨d, l, rfl⟩ := List.exists_cons_of_ne_nil h0
    have hp : ∀ d : Digit, digitChar d ≠ '+' := by decide
    unfold parsesAsU32
    rw [List.map_cons, stripPlus_cons (hp d), ← List.map_cons]
    obtain ⟨m, h1, h2⟩ := decimal_digits (d :: l) 0
    have h3 : decimal ((d :: l).map digitChar) = some m := h1
    rw [h3]
    simp only [List.map_cons, List.isEmpty_cons, Bool.not_false, Bool.true_and, decide_eq_true_eq]
    have : (10 : Nat) ^ (d :: l).length ≤ 10 ^ 9 := Nat.pow_le_pow_right (by omega) h
    omega

theorem bar_not_parsed : (['│'] = ['_'] || parsesAsU32 ['│']) = false := by decide +kernel

theorem rule_not_parsed (l m r : Char) (hl : l = '┌' ∨ l = '├' ∨ l = '└') :
    (rule e l m r = ['_'] || parsesAsU32 (rule e l m r)) = false := by
  have h0 : rule e l m r ≠ ['_'] := by
    intro h
    have := congrArg List.length h
    simp [rule, framed] at this
  obtain ⟨t, ht⟩ : ∃ t, rule e l m r = l :: t := ⟨_, rfl⟩
  rw [Bool.or_eq_false_iff]
  refine ⟨by simpa using h0, ?_⟩
  rw [ht]
  have none : ∀ t : List Char, t.foldl (fun acc c => acc.bind fun n => if '0' ≤ c ∧ c ≤ '9' then
      some (10 * n + (c.toNat - '0'.toNat)) else none) (none : Option Nat) = none := by
    intro t
    induction t with
    | nil => rfl
    | cons c t ih => rw [List.foldl_cons, Option.bind_none]; exact ih
  have hdec : decimal (l :: t) = Option.none := by
    unfold decimal
    rw [List.foldl_cons, Option.bind_some, if_neg]
    · exact none t
    · rcases hl with rfl | rfl | rfl <;> decide
  unfold parsesAsU32
  rw [stripPlus_cons (by rcases hl with rfl | rfl | rfl <;> decide), hdec]
  simp

/-- A cell state as it is read: a single candidate is a digit. -/
def CellState.read (st : CellState) : CellState :=
  match shown st with
  | [d] => .digit d
  | _ => st

theorem parseEntry_shown {st : CellState} (h : st.Fits) : parseEntry (entry (shown st)) = .ok st.read := by
  have single : ∀ d : Digit, parseEntry [digitChar d] = .ok (.digit d) := by decide +kernel
  cases st with
  | digit d => rw [entry_digit]; exact single d
  | candidates cands =>
    by_cases h0 : shown (.candidates cands) = []
    · have hc : cands = 0#16 := by
        rw [Bitset.eq_zero_iff]
        intro i
        rw [Bool.eq_false_iff]
        intro hi
        have : (⟨i, h i hi⟩ : Digit) ∈ shown (.candidates cands) := by
          rw [shown_candidates]; exact Bitset.mem_mems.mpr hi
        rw [h0] at this
        cases this
      subst hc
      decide +kernel
    · have hu : parseEntry (entry (shown (.candidates cands))) =
          (do match ← Bitset.uniqueItem 9 cands with
            | .ok (some digit) => .ok (.digit digit)
            | _ => .ok (.candidates cands)) := by
        unfold parseEntry
        have hm : (Sudoku.asBytes (entry (shown (.candidates cands)))).mapM (fun byte => subU8 byte '0'.toUInt8) =
            .ok ((shown (.candidates cands)).map Digit.get) := by
          have e1 : Sudoku.asBytes (entry (shown (.candidates cands))) = (shown (.candidates cands)).map (fun d => d.get + 48) := by
            unfold entry Sudoku.asBytes
            rw [if_neg h0, List.flatMap_map]
            have : (fun d : Digit => String.utf8EncodeChar (digitChar d)) = fun d => [d.get + 48] := funext digitChar_bytes
            rw [this, ← List.map_eq_flatMap]
          rw [e1, List.mapM_map]
          apply Res.mapM_ok
          intro d _
          have : ∀ d : Digit, subU8 (d.get + 48) '0'.toUInt8 = .ok d.get := by decide +kernel
          exact this d
        rw [hm, Res.ok_bind]
        have hs : ((shown (.candidates cands)).map Digit.get).filterMap Pos.digitNewChecked =
            (shown (.candidates cands)).map Digit.get := by
          rw [List.filterMap_map]
          have : (Pos.digitNewChecked ∘ Digit.get) = fun d : Digit => some d.get := by
            funext d; revert d; decide +kernel
          rw [this, ← List.filterMap_eq_map]
          rfl
        have hf : (((shown (.candidates cands)).map Digit.get).filterMap Pos.digitNewChecked).foldl
            (fun (set : DigitSet) digit => Bitset.union set (Bitset.asSet 16 (Pos.digitIndex digit))) (Bitset.NONE 16) = cands := by
          rw [hs, List.foldl_map]
          have key : ∀ (l : List Digit) (a : DigitSet) (i : Nat), (l.foldl (fun (set : DigitSet) d =>
              Bitset.union set (Bitset.asSet 16 (Pos.digitIndex (Digit.get d)))) a).getLsbD i = true ↔
                a.getLsbD i = true ∨ ∃ d ∈ l, d.val = i := by
            intro l
            induction l with
            | nil => intro a i; simp
            | cons d l ih =>
              intro a i
              have hd : ∀ d : Digit, Pos.digitIndex (Digit.get d) = d.val := by decide +kernel
              rw [List.foldl_cons, ih, Bitset.bit_union, Bool.or_eq_true, hd, Bitset.bit_asSet (by omega), or_assoc]
              simp
          apply BitVec.eq_of_getLsbD_eq
          intro i _
          rw [Bool.eq_iff_iff, key, Bitset.bit_none]
          constructor
          · rintro (h1 | ⟨d, hd, rfl⟩)
            · cases h1
            · rw [shown_candidates] at hd
              exact Bitset.mem_mems.mp hd
          · intro hi
            exact Or.inr ⟨⟨i, h i hi⟩, by rw [shown_candidates]; exact Bitset.mem_mems.mpr hi, rfl⟩
        rw [hf]
        rfl
      rw [hu]
      rcases Bitset.uniqueItem_spec (by omega) (by omega) (by omega) h with ⟨h1, h2⟩ | ⟨d, h1, h2⟩ | ⟨h1, h2⟩
      · rw [h2]
        subst h1
        decide +kernel
      · rw [h2]
        have : shown (.candidates cands) = [d] := by
          rw [shown_candidates]
          have nd := Bitset.nodup_mems (n := 9) cands
          have hm : ∀ x, x ∈ Bitset.mems 9 cands ↔ x = d := by
            intro x
            rw [Bitset.mem_mems, h1, Fin.ext_iff]
          exact List.perm_singleton.mp ((List.perm_ext_iff_of_nodup nd (List.nodup_singleton d)).mpr (by simpa using hm))
        unfold CellState.read
        rw [this]
        rfl
      · rw [h2]
        rw [← Bitset.length_mems h, ← shown_candidates] at h1
        unfold CellState.read
        split
        · rename_i hh; rw [hh] at h1; simp at h1
        · rfl

theorem entries_filter (state : Vector CellState 81) :
    (words (table (entries state))).filter (fun w => w = ['_'] || parsesAsU32 w) = rowMajor (entries state) :=
  entry_words (fun _ _ => entry_word _) _ (fun _ _ => entry_parses (length_shown_le _)) bar_not_parsed
    (fun l m r hl => rule_not_parsed l m r hl)

theorem entries_isEntry (state : Vector CellState 81) :
    (words (table (entries state))).filter isEntry = rowMajor (entries state) :=
  entry_words (fun _ _ => entry_word _) _ (fun _ _ => entry_isEntry _) isEntry_bar
    (fun l m r hl => isEntry_rule l m r (by rcases hl with rfl | rfl | rfl <;> decide))

theorem rowMajor_eq (state : Vector CellState 81) :
    rowMajor (entries state) = (List.finRange 81).map (fun c => entry (shown state[c])) := by
  have h : List.finRange 81 = (List.finRange 9).flatMap (fun r => (List.finRange 9).map (fun c => (Pos.fromCoords r c))) := by
    decide +kernel
  rw [h]
  unfold rowMajor
  rw [List.map_flatMap]
  congr 1
  funext r
  rw [List.map_map]
  congr 1
  funext c
  show _ = entry (shown state[Pos.fromCoords r c])
  rw [getElem_fromCoords]
  rfl

theorem fromGridStateStr_table {state : Vector CellState 81} (h : ∀ c : Fin 81, state[c].Fits) :
    Solver.fromGridStateStr (table (entries state)) = Solver.fromGridState (state.map CellState.read) := by
  unfold Solver.fromGridStateStr
  have e1 : ((Text.lines (table (entries state))).flatMap splitWhitespace).filter
      (fun entry => entry = ['_'] || parsesAsU32 entry) = (List.finRange 81).map (fun c => entry (shown state[c])) := by
    rw [show splitWhitespace = words from funext splitWhitespace_eq, words_lines, entries_filter, rowMajor_eq]
  dsimp only
  rw [e1, List.take_of_length_le (by simp), List.mapM_map,
    Res.mapM_ok (parseEntry ∘ fun c : Fin 81 => entry (shown state[c])) (fun c => state[c].read) _
      (fun c _ => parseEntry_shown (h c)), Res.ok_bind]
  refine congrArg Solver.fromGridState ?_
  apply Vector.ext
  intro i hi
  rw [Vector.getElem_ofFn, Vector.getElem_map]
  simp only [List.getElem?_map, List.getElem?_eq_getElem (show i < (List.finRange 81).length by simpa using hi),
    Option.map_some, Option.getD_some, List.getElem_finRange]
  rfl

end Verif.Strat
