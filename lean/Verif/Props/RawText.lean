import Verif.Model.RawText
import Verif.Spec.Examples
import Verif.Proofs.ResMonad

/-!
# C86: the readers on machine integers
-/
namespace Verif.Props

open Verif Sudoku Raw

private theorem add_ok {debug : Bool} {a b : UInt8} (h : a.toNat + b.toNat < 256) :
    add debug a b = .ok (a + b) ∧ (a + b).toNat = a.toNat + b.toNat := by
  refine ⟨?_, ?_⟩
  · unfold add
    rw [decide_eq_true h, Bool.or_true]
    rfl
  · rw [UInt8.toNat_add]
    exact Nat.mod_eq_of_lt h

private theorem mul_ok {debug : Bool} {a b : UInt8} (h : a.toNat * b.toNat < 256) :
    mul debug a b = .ok (a * b) ∧ (a * b).toNat = a.toNat * b.toNat := by
  refine ⟨?_, ?_⟩
  · unfold mul
    rw [decide_eq_true h, Bool.or_true]
    rfl
  · rw [UInt8.toNat_mul]
    exact Nat.mod_eq_of_lt h

private theorem sub_ok {debug : Bool} {a b : UInt8} (h : b ≤ a) : sub debug a b = .ok (a - b) := by
  unfold sub
  rw [decide_eq_true (UInt8.le_iff_toNat_le.mp h), Bool.or_true]
  rfl

private theorem charSub_ok {debug : Bool} {ch : Char} (h : '0' ≤ ch ∧ ch ≤ '9') :
    sub debug (UInt8.ofNat ch.toNat) (UInt8.ofNat '0'.toNat) =
      .ok (UInt8.ofNat ch.toNat - UInt8.ofNat '0'.toNat) := by
  refine sub_ok ?_
  obtain ⟨h1, h2⟩ := h
  have h1 : 48 ≤ ch.toNat := h1
  have h2 : ch.toNat ≤ 57 := h2
  rw [UInt8.le_iff_toNat_le, UInt8.toNat_ofNat', UInt8.toNat_ofNat', Nat.mod_eq_of_lt (a := ch.toNat) (by omega)]
  exact h1

/-- The counter in what a loop returns, as a number. -/
private def count {E A : Type} (x : Res (Except E (UInt8 × A))) : Res (Except E (Nat × A)) := do
  match ← x with
  | .error e => .ok (.error e)
  | .ok (n, a) => .ok (.ok (n.toNat, a))

private theorem lineLoop_eq (debug : Bool) (s : List Char) : ∀ (bs : List UInt8) (i : UInt8) (g : Grid),
    count (RawText.lineLoop debug s bs i g) = Sudoku.lineLoop s bs i.toNat g := by
  intro bs
  induction bs with
  | nil => intro i g; rfl
  | cons ch bs ih =>
    intro i g
    rw [RawText.lineLoop, Sudoku.lineLoop]
    by_cases hi : i.toNat < 81
    · obtain ⟨e1, e2⟩ := add_ok (debug := debug) (a := i) (b := 1) (by simp; omega)
      have e2 : (i + 1).toNat = i.toNat + 1 := e2
      rw [dif_pos hi, dif_pos hi]
      by_cases h1 : ch = '_'.toUInt8 ∨ ch = '.'.toUInt8
      · rw [if_pos h1, if_pos h1, e1, Res.ok_bind, ih, e2]
      · rw [if_neg h1, if_neg h1]
        by_cases h2 : '0'.toUInt8 ≤ ch ∧ ch ≤ '9'.toUInt8
        · rw [if_pos h2, if_pos h2, sub_ok h2.1, Res.ok_bind, e1, Res.ok_bind, ih, e2]
        · rw [if_neg h2, if_neg h2]
          by_cases h3 : ch = ' '.toUInt8 ∨ ch = '\t'.toUInt8
          · rw [if_pos h3, if_pos h3]; rfl
          · rw [if_neg h3, if_neg h3]
            cases sliceFrom s i.toNat with
            | ok l => cases l <;> rfl
            | err => rfl
            | panic => rfl
            | timeout => rfl
    · rw [dif_neg hi, dif_neg hi]; rfl

/-- **C86**: `from_str_line` counts the cells with a `u8`; for no text does that overflow.  With and without overflow checks
it does the same. -/
theorem C86_line (debug : Bool) (s : List Char) : RawText.fromStrLine debug s = Sudoku.fromStrLine s := by
  unfold RawText.fromStrLine Sudoku.fromStrLine
  cases fastPath (asBytes s) with
  | some g => rfl
  | none =>
    unfold fromStrLineSlow
    have h := lineLoop_eq debug s (asBytes s) 0 (Vector.replicate 81 0)
    rw [show (0 : UInt8).toNat = 0 from rfl] at h
    simp only [← h]
    cases RawText.lineLoop debug s (asBytes s) 0 (Vector.replicate 81 0) with
    | ok r =>
      cases r with
      | error e => rfl
      | ok r =>
        obtain ⟨i, g⟩ := r
        simp only [count, Res.ok_bind]
        by_cases hi : i = 81
        · subst hi; rfl
        · have : ¬ i.toNat = 81 := fun h => hi (UInt8.toNat_inj.mp h)
          rw [if_pos hi, if_pos this]
    | err => rfl
    | panic => rfl
    | timeout => rfl

private theorem rowLoop_eq (debug : Bool) (nLine : UInt8) (hn : nLine.toNat < 9) :
    ∀ (line : List Char) (strCol : Nat) (nCol : UInt8) (fmt : Format) (g : Grid), nCol.toNat ≤ 9 →
    count (RawText.rowLoop debug nLine line strCol nCol fmt g) =
      Sudoku.rowLoop nLine.toNat line strCol nCol.toNat fmt g := by
  intro line
  induction line with
  | nil => intro _ _ _ _ _; rfl
  | cons ch line ih =>
    intro strCol nCol fmt g hc
    rw [RawText.rowLoop, Sudoku.rowLoop]
    by_cases h9 : nCol = 9
    · subst h9
      rw [if_pos rfl, if_pos (show (9 : UInt8).toNat = 9 from rfl)]
      by_cases h1 : ch = ' ' ∨ ch = '\t'
      · rw [if_pos h1, if_pos h1]; rfl
      · rw [if_neg h1, if_neg h1]
        by_cases h2 : ('1' ≤ ch ∧ ch ≤ '9') ∨ ch = '_' ∨ ch = '.' ∨ ch = '0'
        · rw [if_pos h2, if_pos h2]; rfl
        · rw [if_neg h2, if_neg h2]; rfl
    · have h9' : ¬ nCol.toNat = 9 := fun h => h9 (UInt8.toNat_inj.mp h)
      rw [if_neg h9, if_neg h9']
      obtain ⟨a1, a2⟩ := add_ok (debug := debug) (a := nCol) (b := 1) (by simp; omega)
      have a2 : (nCol + 1).toNat = nCol.toNat + 1 := a2
      obtain ⟨m1, m2⟩ := mul_ok (debug := debug) (a := nLine) (b := 9) (by simp; omega)
      have m2 : (nLine * 9).toNat = nLine.toNat * 9 := m2
      obtain ⟨c1, c2⟩ := add_ok (debug := debug) (a := nLine * 9) (b := nCol) (by omega)
      rw [m2] at c2
      have hcell : (nLine * 9 + nCol).toNat < 81 := by omega
      have hcell' : nLine.toNat * 9 + nCol.toNat < 81 := by omega
      dsimp only
      generalize (if (strCol = 3 ∨ strCol = 7) ∧ fmt = .unknown then
          (if ch = '|' then Format.delimited else .bare) else fmt) = fmt'
      by_cases h1 : (strCol = 3 ∨ strCol = 7) ∧ (fmt' = .delimited ∨ fmt' = .delimitedPlus)
      · rw [if_pos h1, if_pos h1]
        by_cases h2 : ch = '|'
        · rw [if_pos h2, if_pos h2]; exact ih _ _ _ _ hc
        · rw [if_neg h2, if_neg h2]; rfl
      · rw [if_neg h1, if_neg h1, m1, Res.ok_bind, c1, Res.ok_bind]
        by_cases h2 : ch = '_' ∨ ch = '.'
        · rw [if_pos h2, if_pos h2, dif_pos hcell, dif_pos hcell', a1, Res.ok_bind, ih _ _ _ _ (by omega), a2]
          simp only [c2]
        · rw [if_neg h2, if_neg h2]
          by_cases h3 : '0' ≤ ch ∧ ch ≤ '9'
          · rw [if_pos h3, if_pos h3, dif_pos hcell, dif_pos hcell', charSub_ok h3, Res.ok_bind, a1, Res.ok_bind,
              ih _ _ _ _ (by omega), a2]
            simp only [c2]
          · rw [if_neg h3, if_neg h3, c2]; rfl

private theorem blockLoop_eq (debug : Bool) : ∀ (ls : List (List Char)) (nLineStr : Nat) (nLine : UInt8) (fmt : Format)
    (g : Grid), nLine.toNat ≤ 9 →
    RawText.blockLoop debug ls nLineStr nLine fmt g = Sudoku.blockLoop ls nLineStr nLine.toNat fmt g := by
  intro ls
  induction ls with
  | nil =>
    intro nLineStr nLine fmt g hn
    rw [RawText.blockLoop, Sudoku.blockLoop]
    by_cases h9 : nLine = 9
    · subst h9; rfl
    · have h9' : ¬ nLine.toNat = 9 := fun h => h9 (UInt8.toNat_inj.mp h)
      obtain ⟨a1, a2⟩ := add_ok (debug := debug) (a := nLine) (b := 1) (by simp; omega)
      have a2 : (nLine + 1).toNat = nLine.toNat + 1 := a2
      rw [if_pos h9, if_pos h9', a1, Res.ok_bind, a2]
  | cons line ls ih =>
    intro nLineStr nLine fmt g hn
    rw [RawText.blockLoop, Sudoku.blockLoop]
    by_cases h9 : nLine = 9
    · subst h9; rfl
    · have h9' : ¬ nLine.toNat = 9 := fun h => h9 (UInt8.toNat_inj.mp h)
      obtain ⟨a1, a2⟩ := add_ok (debug := debug) (a := nLine) (b := 1) (by simp; omega)
      have a2 : (nLine + 1).toNat = nLine.toNat + 1 := a2
      rw [if_neg h9, if_neg h9']
      cases sepCheck nLineStr line fmt with
      | error e => rfl
      | ok r =>
        obtain ⟨fmt, b⟩ := r
        cases b with
        | true => exact ih _ _ _ _ hn
        | false =>
          have h := rowLoop_eq debug nLine (by omega) line 0 0 fmt g (by simp)
          rw [show (0 : UInt8).toNat = 0 from rfl] at h
          simp only [← h]
          cases RawText.rowLoop debug nLine line 0 0 fmt g with
          | ok r =>
            cases r with
            | error e => rfl
            | ok r =>
              obtain ⟨nCol, fmt, g⟩ := r
              simp only [count, Res.ok_bind]
              by_cases hc : nCol = 9
              · subst hc
                rw [if_neg (by simp), if_neg (by simp), a1, Res.ok_bind, ih _ _ _ _ (by omega), a2]
              · have hc' : ¬ nCol.toNat = 9 := fun h => hc (UInt8.toNat_inj.mp h)
                rw [if_pos hc, if_pos hc']
          | err => rfl
          | panic => rfl
          | timeout => rfl

/-- **C86**: `from_str_block` counts rows and columns and numbers the cells with `u8`s; for no text does that overflow. -/
theorem C86_block (debug : Bool) (s : List Char) : RawText.fromStrBlock debug s = Sudoku.fromStrBlock s :=
  blockLoop_eq debug _ _ _ _ _ (by simp)

private theorem permRowLoop_eq (debug : Bool) : ∀ (line : List Char) (n : Nat) (row : Vector UInt8 9),
    RawText.permRowLoop debug line n row = Sudoku.permRowLoop line n row := by
  intro line
  induction line with
  | nil => intro _ _; rfl
  | cons ch line ih =>
    intro n row
    rw [RawText.permRowLoop, Sudoku.permRowLoop]
    by_cases h1 : ch = '.' ∨ ch = '_'
    · rw [if_pos h1, if_pos h1]
      simp only [ih]
    · rw [if_neg h1, if_neg h1]
      by_cases h2 : '0' ≤ ch ∧ ch ≤ '9'
      · rw [if_pos h2, if_pos h2, charSub_ok h2]
        simp only [ih, Res.ok_bind]
      · rw [if_neg h2, if_neg h2]
        simp only [ih]

/-- The number of rows in what the reader returns. -/
private def rows (x : Res (Except UInt8 Grid)) : Res (Except Nat Grid) := do
  match ← x with
  | .error n => .ok (.error n.toNat)
  | .ok g => .ok (.ok g)

private theorem permLoop_eq (debug : Bool) : ∀ (ls : List (List Char)) (n : Nat) (g : Grid), n < 9 →
    rows (RawText.permLoop debug ls n g) = Sudoku.permLoop ls n g := by
  intro ls
  induction ls with
  | nil =>
    intro n g hn
    rw [RawText.permLoop, Sudoku.permLoop]
    show Res.ok (Except.error (UInt8.ofNat n).toNat) = _
    rw [UInt8.toNat_ofNat', Nat.mod_eq_of_lt (by omega)]
  | cons line ls ih =>
    intro n g hn
    rw [RawText.permLoop, Sudoku.permLoop, permRowLoop_eq]
    cases Sudoku.permRowLoop line 0 (Vector.replicate 9 0) with
    | ok r =>
      cases r with
      | none =>
        simp only [Res.ok_bind]
        rw [if_neg (by omega), if_neg (by omega)]
        exact ih _ _ hn
      | some row =>
        simp only [Res.ok_bind]
        cases copyRow g n row with
        | ok g' =>
          simp only [Res.ok_bind]
          by_cases h9 : n + 1 = 9
          · rw [if_pos h9, if_pos h9]; rfl
          · rw [if_neg h9, if_neg h9]; exact ih _ _ (by omega)
        | err => rfl
        | panic => rfl
        | timeout => rfl
    | err => rfl
    | panic => rfl
    | timeout => rfl

/-- **C86**: `from_str_block_permissive` does not overflow, and the number of rows in its error is not cut off by the
conversion to `u8`. -/
theorem C86_permissive (debug : Bool) (s : List Char) :
    (do match ← RawText.fromStrBlockPermissive debug s with
      | .error n => Res.ok (.error n.toNat)
      | .ok g => .ok (.ok g)) = Sudoku.fromStrBlockPermissive s :=
  permLoop_eq debug _ _ _ (by omega)

/-- **C86**: `to_str_line` does not overflow. -/
theorem C86_to_line (debug : Bool) (g : Grid) (hg : WellFormed g) :
    RawText.toStrLine debug g = .ok (Sudoku.toStrLine g).toList := by
  have one : ∀ x : UInt8, x.toNat ≤ 9 → RawText.lineByte debug x = .ok (match numToOpt x with
      | some num => num + '0'.toUInt8
      | none => '.'.toUInt8) := by
    intro x hx
    unfold RawText.lineByte numToOpt
    by_cases h0 : x = 0
    · rw [if_pos h0]
    · rw [if_neg h0]
      have : ('0'.toUInt8).toNat = 48 := by decide
      exact (add_ok (debug := debug) (a := x) (b := '0'.toUInt8) (by omega)).1
  unfold RawText.toStrLine Sudoku.toStrLine
  rw [Vector.toList_map]
  refine Res.mapM_ok _ _ _ fun x hx => one x ?_
  obtain ⟨i, hi, e⟩ := List.getElem_of_mem hx
  have := UInt8.le_iff_toNat_le.mp (hg ⟨i, by simpa using hi⟩)
  subst e
  simpa using this

/-- C86: a counter at its limit would overflow: reading 256 cells in a loop without an end would. -/
example : add true 255 1 = .panic ∧ add false 255 1 = .ok 0 := by decide

/-- C86: a line of 81 dots and a comment. -/
example : ∃ g, RawText.fromStrLine true (List.replicate 81 '.' ++ " x".toList) = .ok (.ok g) :=
  ⟨Vector.replicate 81 0, by rw [C86_line]; decide +kernel⟩

end Verif.Props
