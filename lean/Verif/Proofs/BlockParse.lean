import Verif.Proofs.LineParse
import Verif.Spec.BlockErrors

namespace Verif.Sudoku

open Verif Text

/-- Reference reader of a row. -/
def rowSpec (r : Nat) : List Bool → Nat → List Char → Except BlockParseError (List UInt8)
  | [], _, [] => .ok []
  | [], _, c :: _ =>
    if isBlank c = true then .ok []
    else if cellValue c ≠ none then .error (.invalidLineLength r)
    else .error (.missingCommentDelimiter r)
  | _ :: _, _, [] => .error (.invalidLineLength r)
  | true :: t, n, c :: cs =>
    match cellValue c with
    | none => .error (.invalidEntry (r * 9 + n) c)
    | some v =>
      match rowSpec r t (n + 1) cs with
      | .ok vs => .ok (v :: vs)
      | .error e => .error e
  | false :: t, n, c :: cs =>
    if c = '|' then rowSpec r t n cs else .error .incorrectFieldDelimiter

theorem cellValue_ne_none {c : Char} :
    cellValue c ≠ none ↔ (('1' ≤ c ∧ c ≤ '9') ∨ c = '_' ∨ c = '.' ∨ c = '0') := by
  unfold cellValue
  have h0 : '0'.toNat = 48 := rfl
  have h1 : '1'.toNat = 49 := rfl
  have h9 : '9'.toNat = 57 := rfl
  constructor
  · intro h
    by_cases h1 : c = '_' ∨ c = '.'
    · tauto
    · rw [if_neg h1] at h
      split at h
      · rename_i h2
        by_cases hc : c = '0'
        · tauto
        · left
          refine ⟨?_, h2.2⟩
          rw [le_toNat] at h2 ⊢
          have : c.toNat ≠ '0'.toNat := fun e => hc (Char.toNat_inj.1 e)
          omega
      · exact absurd rfl h
  · rintro (h | h | h | h)
    · split
      · simp
      · rw [if_pos ⟨by rw [le_toNat] at h ⊢; omega, h.2⟩]; simp
    · rw [if_pos (.inl h)]; simp
    · rw [if_pos (.inr h)]; simp
    · subst h; decide

theorem cellValue_digit {c : Char} (h1 : ¬ (c = '_' ∨ c = '.')) (h2 : '0' ≤ c ∧ c ≤ '9') :
    cellValue c = some (UInt8.ofNat c.toNat - UInt8.ofNat '0'.toNat) := by
  unfold cellValue
  rw [if_neg h1, if_pos h2]
  rw [UInt8.ofNat_sub]
  rw [le_toNat, le_toNat] at h2
  exact h2.1

/-- What the caller does with the result of the loop over a line. -/
def rowDone (r : Nat) : Except BlockParseError (Nat × Format × Grid) →
    Res (Except BlockParseError (Format × Grid))
  | .error e => .ok (.error e)
  | .ok (n, fmt, g) => if n ≠ 9 then .ok (.error (.invalidLineLength r)) else .ok (.ok (fmt, g))

/-- The format after the fourth character. -/
def newFmt (d : Bool) (fmt : Format) : Format :=
  if fmt = .unknown then (if d then .delimited else .bare) else fmt

/-- Formats that go with a delimited or bare text. -/
def FmtOK (d : Bool) (fmt : Format) : Prop :=
  if d then fmt = .delimited ∨ fmt = .delimitedPlus else fmt = .bare

theorem isBlank_iff {c : Char} : isBlank c = true ↔ c = ' ' ∨ c = '\t' := by
  simp [isBlank]

theorem template_facts (d : Bool) (k : Nat) : 
    (((rowTemplate d).drop k = [] → (((rowTemplate d).take k).count true) = 9)) ∧
    (∀ t, (rowTemplate d).drop k = true :: t → ((rowTemplate d).take k).count true < 9 ∧
      ((rowTemplate d).take (k+1)).count true = ((rowTemplate d).take k).count true + 1 ∧
      (rowTemplate d).drop (k+1) = t ∧ ((k = 3 ∨ k = 7) → d = false)) ∧
    (∀ t, (rowTemplate d).drop k = false :: t → ((rowTemplate d).take k).count true < 9 ∧
      ((rowTemplate d).take (k+1)).count true = ((rowTemplate d).take k).count true ∧
      (rowTemplate d).drop (k+1) = t ∧ (k = 3 ∨ k = 7) ∧ d = true) := by
  by_cases hk : 11 ≤ k
  · have h1 : (rowTemplate d).drop k = [] := by
      apply List.drop_eq_nil_of_le
      cases d <;> simp [rowTemplate] <;> omega
    have h2 : (rowTemplate d).take k = rowTemplate d := by
      apply List.take_of_length_le
      cases d <;> simp [rowTemplate] <;> omega
    rw [h1, h2]
    refine ⟨fun _ => by cases d <;> decide, ?_, ?_⟩ <;> (intro t h; cases h)
  · have key : ∀ d : Bool, ∀ k : Fin 11, 
      (((rowTemplate d).drop k = [] → (((rowTemplate d).take k).count true) = 9)) ∧
      (((rowTemplate d).drop k).head? = some true → ((rowTemplate d).take k).count true < 9 ∧
        ((rowTemplate d).take (k+1)).count true = ((rowTemplate d).take k).count true + 1 ∧
        (rowTemplate d).drop (k+1) = ((rowTemplate d).drop k).tail ∧ ((k.val = 3 ∨ k.val = 7) → d = false)) ∧
      (((rowTemplate d).drop k).head? = some false → ((rowTemplate d).take k).count true < 9 ∧
        ((rowTemplate d).take (k+1)).count true = ((rowTemplate d).take k).count true ∧
        (rowTemplate d).drop (k+1) = ((rowTemplate d).drop k).tail ∧ (k.val = 3 ∨ k.val = 7) ∧ d = true) := by
      decide
    obtain ⟨h1, h2, h3⟩ := key d ⟨k, by omega⟩
    refine ⟨h1, fun t ht => ?_, fun t ht => ?_⟩
    · have := h2 (by simp only; rw [ht]; rfl)
      simp only [ht, List.tail_cons] at this
      exact this
    · have := h3 (by simp only; rw [ht]; rfl)
      simp only [ht, List.tail_cons] at this
      exact this

theorem rowLoop_spec (d : Bool) (r : Nat) (hr : r < 9) : ∀ (line : List Char) (k : Nat) (fmt : Format) (g : Grid),
    (FmtOK d fmt ∨ (fmt = .unknown ∧ k ≤ 3 ∧ d = decide (line[3 - k]? = some '|'))) →
    (rowLoop r line k (((rowTemplate d).take k).count true) fmt g >>= rowDone r) =
    match rowSpec r ((rowTemplate d).drop k) (((rowTemplate d).take k).count true) line with
    | .error e => .ok (.error e)
    | .ok vs => .ok (.ok (newFmt d fmt, upd g (r * 9 + ((rowTemplate d).take k).count true) vs)) := by
  intro line
  induction line with
  | nil =>
    intro k fmt g hf
    obtain ⟨h1, h2, h3⟩ := template_facts d k
    simp only [rowLoop, Res.ok_bind]
    cases ht : (rowTemplate d).drop k with
    | nil =>
      rw [ht] at h1
      simp only [rowSpec, h1 rfl, rowDone]
      rw [upd_nil]
      have : newFmt d fmt = fmt := by
        rcases hf with hf | ⟨-, hk, -⟩
        · unfold newFmt; rw [if_neg]; rintro rfl; cases d <;> simp [FmtOK] at hf
        · exfalso
          have hl := List.drop_eq_nil_iff.1 ht
          cases d <;> simp [rowTemplate] at hl <;> omega
      rw [this]; simp
    | cons b t =>
      have : ((rowTemplate d).take k).count true ≠ 9 := by
        cases b
        · have := (h3 t ht).1; omega
        · have := (h2 t ht).1; omega
      simp [rowSpec, rowDone, this]
  | cons c line ih =>
    intro k fmt g hf
    obtain ⟨h1, h2, h3⟩ := template_facts d k
    cases ht : (rowTemplate d).drop k with
    | nil =>
      have h9 := h1 ht
      have hn : newFmt d fmt = fmt := by
        rcases hf with hf | ⟨-, hk, -⟩
        · unfold newFmt; rw [if_neg]; rintro rfl; cases d <;> simp [FmtOK] at hf
        · exfalso
          have hl := List.drop_eq_nil_iff.1 ht
          cases d <;> simp [rowTemplate] at hl <;> omega
      rw [h9]
      simp only [rowLoop, if_true, rowSpec]
      by_cases hb : c = ' ' ∨ c = '\t'
      · rw [if_pos hb, if_pos (isBlank_iff.2 hb)]
        simp [rowDone, hn, upd_nil]
      · rw [if_neg hb, if_neg (fun h => hb (isBlank_iff.1 h))]
        by_cases hv : cellValue c ≠ none
        · rw [if_pos hv, if_pos (cellValue_ne_none.1 hv)]
          simp [rowDone]
        · rw [if_neg hv, if_neg (fun h => hv (cellValue_ne_none.2 h))]
          simp [rowDone]
    | cons b t =>
      have hlt : ((rowTemplate d).take k).count true < 9 := by
        cases b
        · exact (h3 t ht).1
        · exact (h2 t ht).1
      -- the format used for this character
      set fmt' := if (k = 3 ∨ k = 7) ∧ fmt = .unknown then
          (if c = '|' then Format.delimited else .bare) else fmt with hfmt'
      have hf' : (FmtOK d fmt' ∨ (fmt' = .unknown ∧ k + 1 ≤ 3 ∧ d = decide (line[3 - (k + 1)]? = some '|'))) ∧
          ((k = 3 ∨ k = 7) → FmtOK d fmt') ∧ newFmt d fmt' = newFmt d fmt := by
        rcases hf with hf | ⟨rfl, hk, hd⟩
        · have hne : fmt ≠ .unknown := by rintro rfl; cases d <;> simp [FmtOK] at hf
          have : fmt' = fmt := by rw [hfmt', if_neg (fun h => hne h.2)]
          rw [this]
          exact ⟨.inl hf, fun _ => hf, rfl⟩
        · by_cases hk3 : k = 3
          · subst hk3
            have hd' : d = decide (c = '|') := by simpa using hd
            have : fmt' = if c = '|' then Format.delimited else .bare := by
              rw [hfmt', if_pos ⟨.inl rfl, rfl⟩]
            rw [this]
            have hok : FmtOK d (if c = '|' then Format.delimited else .bare) := by
              subst hd'
              by_cases hc : c = '|' <;> simp [FmtOK, hc]
            refine ⟨.inl hok, fun _ => hok, ?_⟩
            subst hd'
            by_cases hc : c = '|' <;> simp [newFmt, hc]
          · have hk' : k < 3 := by omega
            have : fmt' = .unknown := by
              rw [hfmt', if_neg (fun h => by omega)]
            rw [this]
            refine ⟨.inr ⟨rfl, by omega, ?_⟩, fun h => by omega, rfl⟩
            rw [hd]
            obtain ⟨m, hm⟩ : ∃ m, 3 - k = m + 1 := ⟨2 - k, by omega⟩
            rw [hm, List.getElem?_cons_succ, show 3 - (k + 1) = m by omega]
      obtain ⟨hnext, hat, hnew⟩ := hf'
      rw [rowLoop, if_neg (by omega)]
      simp only [← hfmt']
      cases b with
      | false =>
        obtain ⟨-, hc, hdrop, hkk, hdt⟩ := h3 t ht
        have hfd := hat hkk
        subst hdt
        have hfd' : fmt' = .delimited ∨ fmt' = .delimitedPlus := by simpa [FmtOK] using hfd
        rw [if_pos ⟨hkk, hfd'⟩]
        simp only [rowSpec]
        by_cases hbar : c = '|'
        · rw [if_pos hbar, if_pos hbar]
          have := ih (k + 1) fmt' g hnext
          rw [hc, hdrop, hnew] at this
          exact this
        · rw [if_neg hbar, if_neg hbar]; rfl
      | true =>
        obtain ⟨-, hc, hdrop, hkd⟩ := h2 t ht
        have hnot : ¬ ((k = 3 ∨ k = 7) ∧ (fmt' = .delimited ∨ fmt' = .delimitedPlus)) := by
          rintro ⟨hk, hfd⟩
          have hd0 := hkd hk
          subst hd0
          have := hat hk
          simp only [FmtOK] at this
          rw [if_neg (by simp)] at this
          rw [this] at hfd
          rcases hfd with h | h <;> cases h
        rw [if_neg hnot]
        simp only [rowSpec]
        have hcell : r * 9 + ((rowTemplate d).take k).count true < 81 := by omega
        have step : ∀ v, cellValue c = some v →
            (rowLoop r line (k + 1) (((rowTemplate d).take k).count true + 1) fmt'
              (g.set (r * 9 + ((rowTemplate d).take k).count true) v hcell) >>= rowDone r) =
            match
              match cellValue c with
              | none => Except.error (BlockParseError.invalidEntry (r * 9 + ((rowTemplate d).take k).count true) c)
              | some v =>
                match rowSpec r t (((rowTemplate d).take k).count true + 1) line with
                | .ok vs => .ok (v :: vs)
                | .error e => .error e with
            | .error e => .ok (.error e)
            | .ok vs => .ok (.ok (newFmt d fmt, upd g (r * 9 + ((rowTemplate d).take k).count true) vs)) := by
          intro v hv
          have := ih (k + 1) fmt' (g.set (r * 9 + ((rowTemplate d).take k).count true) v hcell) hnext
          rw [hc, hdrop, hnew] at this
          rw [this, hv]
          cases rowSpec r t (((rowTemplate d).take k).count true + 1) line with
          | error e => rfl
          | ok vs =>
            simp only
            rw [← Nat.add_assoc, upd_set]
        by_cases hp : c = '_' ∨ c = '.'
        · rw [if_pos hp, dif_pos hcell]
          exact step 0 (by unfold cellValue; rw [if_pos hp])
        · rw [if_neg hp]
          by_cases hdig : '0' ≤ c ∧ c ≤ '9'
          · rw [if_pos hdig, dif_pos hcell]
            exact step _ (cellValue_digit hp hdig)
          · rw [if_neg hdig]
            have : cellValue c = none := by unfold cellValue; rw [if_neg hp, if_neg hdig]
            rw [this]; rfl

/-- Reference reader of a block. -/
def blockSpec (d plus : Bool) : List Bool → Nat → List (List Char) →
    Except BlockParseError (List (List UInt8))
  | [], _, [] => .ok []
  | [], _, l :: _ => if l.all isWhitespace = true then .ok [] else .error .tooManyRows
  | _ :: _, r, [] => .error (.notEnoughRows (r + 1))
  | true :: is, r, l :: ls =>
    match rowSpec r (rowTemplate d) 0 l with
    | .error e => .error e
    | .ok vs =>
      match blockSpec d plus is (r + 1) ls with
      | .ok vss => .ok (vs :: vss)
      | .error e => .error e
  | false :: is, r, l :: ls =>
    if (sepText plus).isPrefixOf l = true then blockSpec d plus is r ls else .error .incorrectFieldDelimiter

theorem upd_append (g : Grid) (i : Nat) (a b : List UInt8) (h : i + a.length ≤ 81) :
    upd (upd g i a) (i + a.length) b = upd g i (a ++ b) := by
  apply Vector.ext
  intro j hj
  rw [upd_get, upd_get, upd_get]
  by_cases h1 : i + a.length ≤ j
  · rw [if_pos h1, if_pos (by omega), if_pos (by omega)]
    simp only [List.getD_eq_getElem?_getD]
    rw [List.getElem?_append_right (by omega), show j - (i + a.length) = j - i - a.length by omega]
    rw [List.getElem?_eq_none (l := a) (by omega)]
    rfl
  · rw [if_neg h1]
    by_cases h2 : i ≤ j
    · rw [if_pos h2, if_pos h2]
      simp only [List.getD_eq_getElem?_getD]
      rw [List.getElem?_append_left (by omega)]
    · rw [if_neg h2, if_neg h2]

theorem rowSpec_length {r : Nat} : ∀ {t : List Bool} {n : Nat} {l : List Char} {vs : List UInt8},
    rowSpec r t n l = .ok vs → vs.length = t.count true := by
  intro t
  induction t with
  | nil =>
    intro n l vs h
    cases l with
    | nil => simp only [rowSpec] at h; cases h; rfl
    | cons c l =>
      simp only [rowSpec] at h
      split at h
      · cases h; rfl
      · split at h <;> cases h
  | cons b t ih =>
    intro n l vs h
    cases l with
    | nil => cases b <;> cases h
    | cons c l =>
      cases b with
      | true =>
        simp only [rowSpec] at h
        split at h
        · cases h
        · split at h
          · rename_i vs' e
            cases h
            simp [ih e]
          · cases h
      | false =>
        simp only [rowSpec] at h
        split at h
        · rw [ih h]; simp
        · cases h

theorem count_template (d : Bool) : (rowTemplate d).count true = 9 := by cases d <;> rfl

theorem prefix_space (l p : List Char) : ((startsWith l p = true) ∨ (startsWith l (p ++ [' ']) = true)) ↔
    p.isPrefixOf l = true := by
  unfold startsWith
  simp only [List.isPrefixOf_iff_prefix]
  constructor
  · rintro (h | h)
    · exact h
    · exact (List.prefix_append _ _).trans h
  · exact .inl

/-- Formats at line number `k`. -/
def BlockFmt (d plus : Bool) (k : Nat) (ls : List (List Char)) (fmt : Format) : Prop :=
  (k = 0 ∧ fmt = .unknown ∧ d = decide ((ls.head?.bind (fun l => l[3]?)) = some '|') ∧
    plus = (match ls[3]? with | some l => (sepText true).isPrefixOf l | none => false)) ∨
  (d = false ∧ fmt = .bare) ∨
  (d = true ∧ 1 ≤ k ∧ k ≤ 3 ∧ fmt = .delimited ∧
    plus = (match ls[3 - k]? with | some l => (sepText true).isPrefixOf l | none => false)) ∨
  (d = true ∧ 3 < k ∧ fmt = if plus then .delimitedPlus else .delimited)

theorem minus_not_plus {l : List Char} (h : (sepText false).isPrefixOf l = true) :
    (sepText true).isPrefixOf l = false := by
  rw [Bool.eq_false_iff]
  intro h'
  rw [List.isPrefixOf_iff_prefix] at h h'
  obtain ⟨a, rfl⟩ := h
  obtain ⟨b, hb⟩ := h'
  simp [sepText] at hb

theorem blockLoop_spec (d plus : Bool) : ∀ (ls : List (List Char)) (k : Nat) (fmt : Format) (g : Grid),
    k ≤ (blockTemplate d).length → BlockFmt d plus k ls fmt →
    blockLoop ls k (((blockTemplate d).take k).count true) fmt g =
    match blockSpec d plus ((blockTemplate d).drop k) (((blockTemplate d).take k).count true) ls with
    | .error e => .ok (.error e)
    | .ok vss => .ok (.ok (upd g (((blockTemplate d).take k).count true * 9) vss.flatten)) := by
  intro ls
  induction ls with
  | nil =>
    intro k fmt g hk hf
    obtain ⟨h1, h2, h3⟩ := template_facts d k
    change (((blockTemplate d).drop k = [] → _)) at h1
    cases ht : (blockTemplate d).drop k with
    | nil =>
      have h9 : ((blockTemplate d).take k).count true = 9 := h1 ht
      simp [blockLoop, h9, blockSpec, upd_nil]
    | cons b t =>
      have hlt : ((blockTemplate d).take k).count true < 9 := by
        cases b
        · exact (h3 t ht).1
        · exact (h2 t ht).1
      simp only [blockLoop, blockSpec]
      rw [if_pos (by omega)]
  | cons l ls ih =>
    intro k fmt g hk hf
    obtain ⟨h1, h2, h3⟩ := template_facts d k
    cases ht : (blockTemplate d).drop k with
    | nil =>
      have h9 : ((blockTemplate d).take k).count true = 9 := h1 ht
      rw [h9]
      simp only [blockLoop, if_true, blockSpec]
      by_cases hw : l.all isWhitespace = true
      · rw [if_pos hw, if_pos hw]; simp [upd_nil]
      · rw [if_neg hw, if_neg hw]
    | cons b t =>
      have hlt : ((blockTemplate d).take k).count true < 9 := by
        cases b
        · exact (h3 t ht).1
        · exact (h2 t ht).1
      have hk1 : k + 1 ≤ (blockTemplate d).length := by
        have := congrArg List.length ht
        simp at this
        omega
      rw [blockLoop, if_neg (by omega)]
      cases b with
      | false =>
        obtain ⟨-, hc, hdrop, hkk, hdt⟩ := h3 t ht
        subst hdt
        -- the line is a horizontal delimiter
        have hsep : (sepCheck k l fmt = .ok (if plus then .delimitedPlus else .delimited, true) ∧
              (sepText plus).isPrefixOf l = true) ∨
            (sepCheck k l fmt = .error .incorrectFieldDelimiter ∧ (sepText plus).isPrefixOf l = false) := by
          have e1 : minusLit = sepText false := rfl
          have e2 : plusLit = sepText true := rfl
          unfold sepCheck
          rw [e1, e2]
          simp only [prefix_space]
          rcases hf with ⟨hk0, -⟩ | ⟨h, -⟩ | ⟨-, h1, h3, rfl, hp⟩ | ⟨-, h3, hfm⟩
          · omega
          · cases h
          · have hk3 : k = 3 := by omega
            subst hk3
            simp only [Nat.sub_self, List.getElem?_cons_zero] at hp
            by_cases hpl : (sepText true).isPrefixOf l = true
            · rw [hpl] at hp
              subst hp
              left
              simp [hpl]
            · have hp' : plus = false := by rw [hp]; exact Bool.eq_false_iff.2 hpl
              subst hp'
              by_cases hmi : (sepText false).isPrefixOf l = true
              · left; simp [hmi, minus_not_plus hmi]
              · right; simp [hpl, hmi]
          · have hk7 : k = 7 := by omega
            subst hk7
            cases plus with
            | true =>
              simp only [if_true] at hfm
              subst hfm
              by_cases hpl : (sepText true).isPrefixOf l = true
              · left; simp [hpl]
              · right; simp [hpl]
            | false =>
              simp only [Bool.false_eq_true, if_false] at hfm
              subst hfm
              by_cases hpl : (sepText false).isPrefixOf l = true
              · left; simp [hpl]
              · right; simp [hpl]
        simp only [blockSpec]
        rcases hsep with ⟨hs, hp⟩ | ⟨hs, hp⟩
        · rw [hs, if_pos hp]
          simp only
          have := ih (k + 1) (if plus then .delimitedPlus else .delimited) g hk1
            (.inr (.inr (.inr ⟨rfl, by omega, rfl⟩)))
          change _ = _ at hc
          rw [show ((blockTemplate true).take (k + 1)).count true = ((blockTemplate true).take k).count true from hc,
            show (blockTemplate true).drop (k + 1) = t from hdrop] at this
          exact this
        · rw [hs, if_neg (by simp [hp])]
      | true =>
        obtain ⟨-, hc, hdrop, hkd⟩ := h2 t ht
        have hno : sepCheck k l fmt = .ok (fmt, false) := by
          unfold sepCheck
          rw [if_neg]
          rintro ⟨hfd, hkk⟩
          have hd0 := hkd hkk
          subst hd0
          rcases hf with ⟨-, rfl, -⟩ | ⟨-, rfl⟩ | ⟨h, -⟩ | ⟨h, -⟩
          · rcases hfd with h | h <;> cases h
          · rcases hfd with h | h <;> cases h
          · cases h
          · cases h
        rw [hno]
        simp only
        have hrow := rowLoop_spec d (((blockTemplate d).take k).count true) hlt l 0 fmt g (by
          rcases hf with ⟨-, rfl, hd, -⟩ | ⟨rfl, rfl⟩ | ⟨rfl, -, -, rfl, -⟩ | ⟨rfl, -, rfl⟩
          · right; exact ⟨rfl, by omega, hd.trans (decide_eq_decide.2 Iff.rfl)⟩
          · left; rfl
          · left; exact .inl rfl
          · left; cases plus
            · exact .inl rfl
            · exact .inr rfl)
        simp only [List.take_zero, List.drop_zero, List.count_nil, Nat.add_zero] at hrow
        have hbind : ∀ (x : Res (Except BlockParseError (Nat × Format × Grid)))
            (f : Format → Grid → Res (Except BlockParseError Grid)) (r : Nat),
            (x >>= fun y => match y with
              | .error e => Res.ok (Except.error e)
              | .ok (nCol, fmt, grid) => if nCol ≠ 9 then .ok (.error (.invalidLineLength r)) else f fmt grid) =
            ((x >>= rowDone r) >>= fun y => match y with
              | .error e => .ok (.error e)
              | .ok (fmt, grid) => f fmt grid) := by
          intro x f r
          cases x with
          | ok y =>
            cases y with
            | error e => rfl
            | ok p =>
              obtain ⟨n, fmt, g⟩ := p
              simp only [Res.ok_bind, rowDone]
              by_cases hn : n ≠ 9
              · rw [if_pos hn, if_pos hn]; rfl
              · rw [if_neg hn, if_neg hn]; rfl
          | err => rfl
          | panic => rfl
          | timeout => rfl
        have := hbind (rowLoop (((blockTemplate d).take k).count true) l 0 0 fmt g)
          (fun fmt grid => blockLoop ls (k + 1) (((blockTemplate d).take k).count true + 1) fmt grid)
          (((blockTemplate d).take k).count true)
        refine this.trans ?_
        rw [hrow]
        simp only [blockSpec]
        cases hrs : rowSpec (((blockTemplate d).take k).count true) (rowTemplate d) 0 l with
        | error e => rfl
        | ok vs =>
          simp only [Res.ok_bind]
          have hvl : vs.length = 9 := (rowSpec_length hrs).trans (count_template d)
          have hf' : BlockFmt d plus (k + 1) ls (newFmt d fmt) := by
            rcases hf with ⟨rfl, rfl, hd, hp⟩ | ⟨rfl, rfl⟩ | ⟨rfl, hk1, hk3, rfl, hp⟩ | ⟨rfl, h3', rfl⟩
            · cases d with
              | false => right; left; exact ⟨rfl, rfl⟩
              | true =>
                right; right; left
                refine ⟨rfl, by omega, by omega, rfl, ?_⟩
                simpa using hp
            · right; left; exact ⟨rfl, rfl⟩
            · right; right; left
              have hk3' : k ≠ 3 := fun h => by have := hkd (.inl h); cases this
              refine ⟨rfl, by omega, by omega, rfl, ?_⟩
              rw [hp]
              obtain ⟨m, hm⟩ : ∃ m, 3 - k = m + 1 := ⟨2 - k, by omega⟩
              rw [hm, List.getElem?_cons_succ, show 3 - (k + 1) = m by omega]
            · right; right; right
              refine ⟨rfl, by omega, ?_⟩
              cases plus <;> rfl
          have hih := ih (k + 1) (newFmt d fmt) (upd g (((blockTemplate d).take k).count true * 9) vs) hk1 hf'
          rw [show ((blockTemplate d).take (k + 1)).count true = ((blockTemplate d).take k).count true + 1 from hc,
            show (blockTemplate d).drop (k + 1) = t from hdrop] at hih
          rw [hih]
          cases blockSpec d plus t (((blockTemplate d).take k).count true + 1) ls with
          | error e => rfl
          | ok vss =>
            simp only [List.flatten_cons]
            rw [← upd_append _ _ _ _ (by omega), hvl, Nat.add_mul, Nat.one_mul]

theorem fromStrBlock_eq (s : List Char) :
    fromStrBlock s =
    match blockSpec (usesDelimiters (lines s)) (usesPlus (lines s))
      (blockTemplate (usesDelimiters (lines s))) 0 (lines s) with
    | .error e => .ok (.error e)
    | .ok vss => .ok (.ok (upd (Vector.replicate 81 0) 0 vss.flatten)) := by
  have := blockLoop_spec (usesDelimiters (lines s)) (usesPlus (lines s)) (lines s) 0 .unknown
    (Vector.replicate 81 0) (by omega) (.inl ⟨rfl, rfl, rfl, rfl⟩)
  unfold fromStrBlock
  simpa using this

end Verif.Sudoku

namespace Verif.Sudoku

open Verif Text

/-- Text after a complete row: nothing, or a space or tab and anything. -/
def TailOK (tail : List Char) : Prop := tail = [] ∨ ∃ c rest, tail = c :: rest ∧ isBlank c = true

theorem rowSpec_ok_iff (r : Nat) : ∀ (t : List Bool) (n : Nat) (l : List Char) (vs : List UInt8),
    rowSpec r t n l = .ok vs ↔ ∃ body tail, l = body ++ tail ∧ Matches t body vs ∧ TailOK tail := by
  intro t
  induction t with
  | nil =>
    intro n l vs
    constructor
    · intro h
      cases l with
      | nil => simp only [rowSpec] at h; cases h; exact ⟨[], [], rfl, .nil, .inl rfl⟩
      | cons c l =>
        simp only [rowSpec] at h
        split at h
        · rename_i hb
          cases h; exact ⟨[], c :: l, rfl, .nil, .inr ⟨c, l, rfl, hb⟩⟩
        · split at h <;> cases h
    · rintro ⟨body, tail, rfl, hm, ht⟩
      cases hm
      rcases ht with rfl | ⟨c, rest, rfl, hb⟩
      · rfl
      · simp [rowSpec, hb]
  | cons b t ih =>
    intro n l vs
    cases b with
    | true =>
      constructor
      · intro h
        cases l with
        | nil => cases h
        | cons c l =>
          simp only [rowSpec] at h
          split at h
          · cases h
          · rename_i v hv
            split at h
            · rename_i vs' e
              cases h
              obtain ⟨body, tail, rfl, hm, ht⟩ := (ih _ _ _).1 e
              exact ⟨c :: body, tail, rfl, .cell hv hm, ht⟩
            · cases h
      · rintro ⟨body, tail, rfl, hm, ht⟩
        cases hm with
        | cell hv hm =>
          rename_i c v b' vs'
          have := (ih (n + 1) (b' ++ tail) vs').2 ⟨b', tail, rfl, hm, ht⟩
          simp only [List.cons_append, rowSpec, hv, this]
    | false =>
      constructor
      · intro h
        cases l with
        | nil => cases h
        | cons c l =>
          simp only [rowSpec] at h
          split at h
          · rename_i hc
            obtain ⟨body, tail, rfl, hm, ht⟩ := (ih _ _ _).1 h
            subst hc
            exact ⟨'|' :: body, tail, rfl, .bar hm, ht⟩
          · cases h
      · rintro ⟨body, tail, rfl, hm, ht⟩
        cases hm with
        | bar hm =>
          rename_i b'
          have := (ih n (b' ++ tail) vs).2 ⟨b', tail, rfl, hm, ht⟩
          simp only [List.cons_append, rowSpec, if_true, this]

theorem rowSpec_row_iff (d : Bool) (r : Nat) (l : List Char) (vs : List UInt8) :
    rowSpec r (rowTemplate d) 0 l = .ok vs ↔ RowOK d l vs := rowSpec_ok_iff r _ 0 l vs

theorem blank_not_cell {c : Char} (h : isBlank c = true) : cellValue c = none := by
  rw [isBlank_iff] at h
  rcases h with rfl | rfl <;> decide

theorem rowSpec_error_iff (r : Nat) : ∀ (t : List Bool) (n : Nat) (l : List Char) (e : BlockParseError),
    rowSpec r t n l = .error e ↔ ∃ t1 t2 body rest vs, t = t1 ++ t2 ∧ l = body ++ rest ∧
      Matches t1 body vs ∧ RowFault r (n + vs.length) t2 rest e := by
  intro t
  induction t with
  | nil =>
    intro n l e
    constructor
    · intro h
      cases l with
      | nil => cases h
      | cons c l =>
        simp only [rowSpec] at h
        split at h
        · cases h
        · rename_i hb
          split at h
          · rename_i hv; cases h
            exact ⟨[], [], [], c :: l, [], rfl, rfl, .nil, .inl ⟨hv, rfl⟩⟩
          · rename_i hv; cases h
            exact ⟨[], [], [], c :: l, [], rfl, rfl, .nil, .inr ⟨by simpa using hv, by simpa using hb, rfl⟩⟩
    · rintro ⟨t1, t2, body, rest, vs, ht, rfl, hm, hf⟩
      obtain ⟨rfl, rfl⟩ := List.append_eq_nil_iff.1 ht.symm
      cases hm
      cases rest with
      | nil => cases hf
      | cons c rest =>
        rcases hf with ⟨hv, rfl⟩ | ⟨hv, hb, rfl⟩
        · have hb : ¬ isBlank c = true := fun hb => hv (blank_not_cell hb)
          simp [rowSpec, hb, hv]
        · simp [rowSpec, hb, hv]
  | cons b t ih =>
    intro n l e
    constructor
    · intro h
      cases l with
      | nil =>
        have : e = .invalidLineLength r := by cases b <;> (simp only [rowSpec] at h; cases h; rfl)
        exact ⟨[], b :: t, [], [], [], rfl, rfl, .nil, by cases b <;> exact this⟩
      | cons c l =>
        cases b with
        | true =>
          simp only [rowSpec] at h
          split at h
          · rename_i hv; cases h
            refine ⟨[], true :: t, [], c :: l, [], rfl, rfl, .nil, hv, ?_⟩
            simp [Nat.mul_comm]
          · rename_i v hv
            split at h
            · cases h
            · rename_i e' he
              cases h
              obtain ⟨t1, t2, body, rest, vs, rfl, rfl, hm, hf⟩ := (ih _ _ _).1 he
              refine ⟨true :: t1, t2, c :: body, rest, v :: vs, rfl, rfl, .cell hv hm, ?_⟩
              rw [List.length_cons, show n + (vs.length + 1) = n + 1 + vs.length by omega]
              exact hf
        | false =>
          simp only [rowSpec] at h
          split at h
          · rename_i hc
            subst hc
            obtain ⟨t1, t2, body, rest, vs, rfl, rfl, hm, hf⟩ := (ih _ _ _).1 h
            exact ⟨false :: t1, t2, '|' :: body, rest, vs, rfl, rfl, .bar hm, hf⟩
          · rename_i hc; cases h
            exact ⟨[], false :: t, [], c :: l, [], rfl, rfl, .nil, hc, rfl⟩
    · rintro ⟨t1, t2, body, rest, vs, ht, rfl, hm, hf⟩
      cases hm with
      | nil =>
        have ht' : t2 = b :: t := by simpa using ht.symm
        subst ht'
        cases rest with
        | nil =>
          cases b <;> (cases hf; rfl)
        | cons c rest =>
          cases b with
          | true =>
            obtain ⟨hv, rfl⟩ := hf
            simp [rowSpec, hv, Nat.mul_comm]
          | false =>
            obtain ⟨hc, rfl⟩ := hf
            simp [rowSpec, hc]
      | cell hv hm =>
        rename_i c v t' b' vs'
        simp only [List.cons_append, List.cons.injEq] at ht
        obtain ⟨rfl, rfl⟩ := ht
        have := (ih (n + 1) (b' ++ rest) e).2 ⟨t', t2, b', rest, vs', rfl, rfl, hm, by
          rw [List.length_cons, show n + (vs'.length + 1) = n + 1 + vs'.length by omega] at hf; exact hf⟩
        simp only [List.cons_append, rowSpec, hv, this]
      | bar hm =>
        rename_i t' b'
        simp only [List.cons_append, List.cons.injEq] at ht
        obtain ⟨rfl, rfl⟩ := ht
        have := (ih n (b' ++ rest) e).2 ⟨t', t2, b', rest, vs, rfl, rfl, hm, hf⟩
        simp only [List.cons_append, rowSpec, if_true, this]

theorem sepOK_iff {plus : Bool} {l : List Char} : (sepText plus).isPrefixOf l = true ↔ SepOK plus l := by
  rw [List.isPrefixOf_iff_prefix]
  constructor
  · rintro ⟨r, h⟩; exact ⟨r, h.symm⟩
  · rintro ⟨r, h⟩; exact ⟨r, h.symm⟩

theorem blockSpec_ok_iff (d plus : Bool) : ∀ (items : List Bool) (r : Nat) (ls : List (List Char))
    (vss : List (List UInt8)),
    blockSpec d plus items r ls = .ok vss ↔
      ∃ block rest, ls = block ++ rest ∧ BlockMatches d plus items block vss ∧ EndOK rest := by
  intro items
  induction items with
  | nil =>
    intro r ls vss
    constructor
    · intro h
      cases ls with
      | nil => simp only [blockSpec] at h; cases h; exact ⟨[], [], rfl, .nil, .inl rfl⟩
      | cons l ls =>
        simp only [blockSpec] at h
        split at h
        · rename_i hb
          cases h; exact ⟨[], l :: ls, rfl, .nil, .inr ⟨l, ls, rfl, hb⟩⟩
        · cases h
    · rintro ⟨block, rest, rfl, hm, ht⟩
      cases hm
      rcases ht with rfl | ⟨l, ls, rfl, hb⟩
      · rfl
      · simp only [List.nil_append, blockSpec, if_pos hb]
  | cons b items ih =>
    intro r ls vss
    cases b with
    | true =>
      constructor
      · intro h
        cases ls with
        | nil => cases h
        | cons l ls =>
          simp only [blockSpec] at h
          split at h
          · cases h
          · rename_i vs hv
            split at h
            · rename_i vss' e
              cases h
              obtain ⟨block, rest, rfl, hm, ht⟩ := (ih _ _ _).1 e
              exact ⟨l :: block, rest, rfl, .row ((rowSpec_row_iff d r l vs).1 hv) hm, ht⟩
            · cases h
      · rintro ⟨block, rest, rfl, hm, ht⟩
        cases hm with
        | row hv hm =>
          rename_i l vs ls' vss'
          have := (ih (r + 1) (ls' ++ rest) vss').2 ⟨ls', rest, rfl, hm, ht⟩
          simp only [List.cons_append, blockSpec, (rowSpec_row_iff d r l vs).2 hv, this]
    | false =>
      constructor
      · intro h
        cases ls with
        | nil => cases h
        | cons l ls =>
          simp only [blockSpec] at h
          split at h
          · rename_i hc
            obtain ⟨block, rest, rfl, hm, ht⟩ := (ih _ _ _).1 h
            exact ⟨l :: block, rest, rfl, .sep (sepOK_iff.1 hc) hm, ht⟩
          · cases h
      · rintro ⟨block, rest, rfl, hm, ht⟩
        cases hm with
        | sep hs hm =>
          rename_i l ls'
          have := (ih r (ls' ++ rest) vss).2 ⟨ls', rest, rfl, hm, ht⟩
          simp only [List.cons_append, blockSpec, if_pos (sepOK_iff.2 hs), this]

theorem rowSpec_row_error (d : Bool) (r : Nat) (l : List Char) (e : BlockParseError) :
    rowSpec r (rowTemplate d) 0 l = .error e ↔ ∃ t1 t2 body tail vs, rowTemplate d = t1 ++ t2 ∧
      l = body ++ tail ∧ Matches t1 body vs ∧ RowFault r vs.length t2 tail e := by
  rw [rowSpec_error_iff]
  simp only [Nat.zero_add]

theorem blockSpec_error_iff (d plus : Bool) : ∀ (items : List Bool) (r : Nat) (ls : List (List Char))
    (e : BlockParseError),
    blockSpec d plus items r ls = .error e ↔ ∃ i1 i2 block rest vss, items = i1 ++ i2 ∧ ls = block ++ rest ∧
      BlockMatches d plus i1 block vss ∧ BlockFault d plus (r + vss.length) i2 rest e := by
  intro items
  induction items with
  | nil =>
    intro r ls e
    constructor
    · intro h
      cases ls with
      | nil => cases h
      | cons l ls =>
        simp only [blockSpec] at h
        split at h
        · cases h
        · rename_i hb
          cases h
          exact ⟨[], [], [], l :: ls, [], rfl, rfl, .nil, Bool.eq_false_iff.2 hb, rfl⟩
    · rintro ⟨t1, t2, body, rest, vs, ht, rfl, hm, hf⟩
      obtain ⟨rfl, rfl⟩ := List.append_eq_nil_iff.1 ht.symm
      cases hm
      cases rest with
      | nil => cases hf
      | cons l rest =>
        obtain ⟨hb, rfl⟩ := hf
        simp only [List.nil_append, blockSpec, hb, Bool.false_eq_true, if_false]
  | cons b items ih =>
    intro r ls e
    constructor
    · intro h
      cases ls with
      | nil =>
        have : e = .notEnoughRows (r + 1) := by cases b <;> (simp only [blockSpec] at h; cases h; rfl)
        exact ⟨[], b :: items, [], [], [], rfl, rfl, .nil, by cases b <;> exact this⟩
      | cons l ls =>
        cases b with
        | true =>
          simp only [blockSpec] at h
          split at h
          · rename_i e' he; cases h
            refine ⟨[], true :: items, [], l :: ls, [], rfl, rfl, .nil, ?_⟩
            exact (rowSpec_row_error d r l e).1 he
          · rename_i vs hv
            split at h
            · cases h
            · rename_i e' he
              cases h
              obtain ⟨t1, t2, body, rest, vss, rfl, rfl, hm, hf⟩ := (ih _ _ _).1 he
              refine ⟨true :: t1, t2, l :: body, rest, vs :: vss, rfl, rfl,
                .row ((rowSpec_row_iff d r l vs).1 hv) hm, ?_⟩
              rw [List.length_cons, show r + (vss.length + 1) = r + 1 + vss.length by omega]
              exact hf
        | false =>
          simp only [blockSpec] at h
          split at h
          · rename_i hc
            obtain ⟨t1, t2, body, rest, vs, rfl, rfl, hm, hf⟩ := (ih _ _ _).1 h
            exact ⟨false :: t1, t2, l :: body, rest, vs, rfl, rfl, .sep (sepOK_iff.1 hc) hm, hf⟩
          · rename_i hc; cases h
            exact ⟨[], false :: items, [], l :: ls, [], rfl, rfl, .nil, fun hs => hc (sepOK_iff.2 hs), rfl⟩
    · rintro ⟨t1, t2, body, rest, vs, ht, rfl, hm, hf⟩
      cases hm with
      | nil =>
        have ht' : t2 = b :: items := by simpa using ht.symm
        subst ht'
        cases rest with
        | nil =>
          cases b <;> (cases hf; rfl)
        | cons l rest =>
          cases b with
          | true =>
            have := (rowSpec_row_error d r l e).2 hf
            simp only [List.nil_append, blockSpec, this]
          | false =>
            obtain ⟨hc, rfl⟩ := hf
            simp only [List.nil_append, blockSpec]
            rw [if_neg (fun h => hc (sepOK_iff.1 h))]
      | row hv hm =>
        rename_i l v t' b' vs'
        simp only [List.cons_append, List.cons.injEq] at ht
        obtain ⟨rfl, rfl⟩ := ht
        have := (ih (r + 1) (b' ++ rest) e).2 ⟨t', t2, b', rest, vs', rfl, rfl, hm, by
          rw [List.length_cons, show r + (vs'.length + 1) = r + 1 + vs'.length by omega] at hf; exact hf⟩
        simp only [List.cons_append, blockSpec, (rowSpec_row_iff d r l v).2 hv, this]
      | sep hs hm =>
        rename_i l t' b'
        simp only [List.cons_append, List.cons.injEq] at ht
        obtain ⟨rfl, rfl⟩ := ht
        have := (ih r (b' ++ rest) e).2 ⟨t', t2, b', rest, vs, rfl, rfl, hm, hf⟩
        simp only [List.cons_append, blockSpec, if_pos (sepOK_iff.2 hs), this]

theorem Matches.length {t b vs} (h : Matches t b vs) : vs.length = t.count true ∧ b.length = t.length := by
  induction h with
  | nil => exact ⟨rfl, rfl⟩
  | cell _ _ ih => simp [ih.1, ih.2]
  | bar _ ih => simp [ih.1, ih.2]

theorem BlockMatches.rows {d plus items ls vss} (h : BlockMatches d plus items ls vss) :
    vss.length = items.count true ∧ ls.length = items.length ∧ ∀ vs ∈ vss, vs.length = 9 := by
  induction h with
  | nil => exact ⟨rfl, rfl, by simp⟩
  | row hr _ ih =>
    obtain ⟨body, tail, -, hm, -⟩ := hr
    refine ⟨by simp [ih.1], by simp [ih.2.1], ?_⟩
    intro vs hvs
    rcases List.mem_cons.1 hvs with rfl | hvs
    · rw [(Matches.length hm).1, count_template]
    · exact ih.2.2 vs hvs
  | sep _ _ ih => exact ⟨by simp [ih.1], by simp [ih.2.1], ih.2.2⟩

theorem rows_eq_grid {vss : List (List UInt8)} (h9 : vss.length = 9) (hr : ∀ vs ∈ vss, vs.length = 9) (g : Grid) :
    vss = List.ofFn (gridRow (upd g 0 vss.flatten)) := by
  apply List.ext_getElem
  · simp [h9]
  · intro i h1 h2
    have hi : i < 9 := by omega
    rw [List.getElem_ofFn]
    have hlen : (vss[i]).length = 9 := hr _ (List.getElem_mem h1)
    apply List.ext_getElem
    · simp [gridRow, hlen]
    · intro j h3 h4
      have hj : j < 9 := by omega
      have e : (gridRow (upd g 0 vss.flatten) ⟨i, hi⟩)[j] = (upd g 0 vss.flatten)[9 * i + j] := by
        unfold gridRow
        exact List.getElem_ofFn (f := fun k : Fin 9 => (upd g 0 vss.flatten)[9 * i + k.val]'(by omega)) _
      refine Eq.trans ?_ e.symm
      rw [upd_get, if_pos (Nat.zero_le _)]
      have key : ∀ (vss : List (List UInt8)) (i : Nat), (∀ vs ∈ vss, vs.length = 9) → (hi : i < vss.length) →
          vss.flatten[9 * i + j]? = (vss[i])[j]? := by
        intro vss
        induction vss with
        | nil => intro i _ hi; simp at hi
        | cons vs vss ih =>
          intro i hr hi
          have hl : vs.length = 9 := hr vs (by simp)
          cases i with
          | zero =>
            simp only [List.flatten_cons, List.getElem_cons_zero, Nat.mul_zero, Nat.zero_add]
            rw [List.getElem?_append_left (by omega)]
          | succ i =>
            simp only [List.flatten_cons, List.getElem_cons_succ]
            rw [List.getElem?_append_right (by omega), hl, show 9 * (i + 1) + j - 9 = 9 * i + j by omega]
            exact ih i (fun v hv => hr v (List.mem_cons_of_mem _ hv)) (by simpa using hi)
      rw [List.getD_eq_getElem?_getD, Nat.sub_zero]
      rw [key vss i hr h1, List.getElem?_eq_getElem h3]
      rfl

theorem grid_of_rows {g g' : Grid} (h : List.ofFn (gridRow g) = List.ofFn (gridRow g')) : g = g' := by
  apply Vector.ext
  intro i hi
  have h1 := List.ofFn_injective h
  have h2 := congrFun h1 ⟨i / 9, by omega⟩
  unfold gridRow at h2
  have h3 := congrFun (List.ofFn_injective h2) ⟨i % 9, by omega⟩
  simp only [Nat.div_add_mod] at h3
  exact h3

end Verif.Sudoku
