import Verif.Proofs.BlockParse

namespace Verif.Sudoku

open Verif Text

/-! ## Lines -/

theorem linesAux_nil (acc : List Char) : linesAux acc [] = if acc = [] then [] else [acc.reverse] := rfl

/-- Removal of a carriage return at the end (the line is reversed). -/
def strip (acc : List Char) : List Char :=
  match acc with
  | '\r' :: acc' => acc'.reverse
  | _ => acc.reverse

theorem linesAux_newline (acc rest : List Char) :
    linesAux acc ('\n' :: rest) = strip acc :: linesAux [] rest := by
  conv_lhs => unfold linesAux
  rw [if_pos rfl]
  rfl

theorem linesAux_append : ∀ (l acc rest : List Char), '\n' ∉ l →
    linesAux acc (l ++ rest) = linesAux (l.reverse ++ acc) rest := by
  intro l
  induction l with
  | nil => intros; rfl
  | cons c l ih =>
    intro acc rest h
    have hc : c ≠ '\n' := fun e => h (by simp [e])
    have hl : '\n' ∉ l := fun e => h (by simp [e])
    rw [List.cons_append]
    conv_lhs => unfold linesAux
    rw [if_neg hc, ih _ _ hl]
    simp

theorem strip_reverse {l : List Char} (h : l.getLast? ≠ some '\r') : strip l.reverse = l := by
  unfold strip
  split
  · rename_i acc' e
    exfalso
    apply h
    rw [List.getLast?_eq_head?_reverse, e]
    rfl
  · simp

theorem lines_cons {l rest : List Char} (h : '\n' ∉ l) (hr : l.getLast? ≠ some '\r') :
    lines (l ++ '\n' :: rest) = l :: lines rest := by
  unfold lines
  rw [linesAux_append l _ _ h, linesAux_newline, List.append_nil, strip_reverse hr]

theorem lines_cons_cr {l rest : List Char} (h : '\n' ∉ l) :
    lines (l ++ '\r' :: '\n' :: rest) = l :: lines rest := by
  unfold lines
  have : '\n' ∉ l ++ ['\r'] := by simp [h]
  rw [show l ++ '\r' :: '\n' :: rest = (l ++ ['\r']) ++ '\n' :: rest by simp,
    linesAux_append _ _ _ this, linesAux_newline, List.append_nil, List.reverse_append]
  simp [strip]

theorem lines_last {l : List Char} (h : '\n' ∉ l) (hl : l ≠ []) : lines l = [l] := by
  unfold lines
  have := linesAux_append l [] [] h
  rw [List.append_nil] at this
  rw [this, linesAux_nil]
  simp [hl]

/-! ## The permissive reader -/

theorem permRowLoop_spec : ∀ (l : List Char) (n : Nat) (row : Vector UInt8 9), n < 9 →
    (n + (l.filterMap cellValue).length < 9 → permRowLoop l n row = .ok none) ∧
    (9 ≤ n + (l.filterMap cellValue).length → ∃ row', permRowLoop l n row = .ok (some row') ∧
      row'.toList = row.toList.take n ++ (l.filterMap cellValue).take (9 - n)) := by
  intro l
  induction l with
  | nil => intro n row hn; exact ⟨fun _ => rfl, fun h => by simp at h; omega⟩
  | cons c l ih =>
    intro n row hn
    have hstep : permRowLoop (c :: l) n row = match cellValue c with
        | none => permRowLoop l n row
        | some v => if n + 1 = 9 then .ok (some (row.set n v hn)) else permRowLoop l (n + 1) (row.set n v hn) := by
      conv_lhs => unfold permRowLoop
      unfold cellValue
      by_cases h1 : c = '_' ∨ c = '.'
      · rw [if_pos h1, if_pos (Or.comm.1 h1), dif_pos hn]
        rfl
      · rw [if_neg h1, if_neg (fun h => h1 (Or.comm.1 h))]
        by_cases h2 : '0' ≤ c ∧ c ≤ '9'
        · rw [if_pos h2, if_pos h2, dif_pos hn]
          have e : UInt8.ofNat c.toNat - UInt8.ofNat '0'.toNat = UInt8.ofNat (c.toNat - '0'.toNat) := by
            have h3 : 48 ≤ c.toNat := h2.1
            have h4 : c.toNat ≤ 57 := h2.2
            apply UInt8.toNat_inj.1
            rw [UInt8.toNat_sub_of_le]
            · simp; omega
            · rw [UInt8.le_iff_toNat_le]; simp; omega
          simp only [Res.ok_bind, e]
        · rw [if_neg h2, if_neg h2]
          simp only [Res.ok_bind]
          rw [if_neg (by omega)]
    rw [hstep]
    cases hv : cellValue c with
    | none =>
      simp only [List.filterMap_cons, hv]
      exact ih n row hn
    | some v =>
      simp only [List.filterMap_cons, hv, List.length_cons]
      have htake : (row.set n v hn).toList.take (n + 1) = row.toList.take n ++ [v] := by
        rw [List.take_add_one]
        simp [Vector.toList_set, hn, List.take_set, List.set_eq_of_length_le]
      by_cases h8 : n + 1 = 9
      · rw [if_pos h8]
        refine ⟨fun h => by omega, fun _ => ⟨_, rfl, ?_⟩⟩
        rw [show 9 - n = 0 + 1 by omega, List.take_succ_cons, List.take_zero, ← htake, h8,
          List.take_of_length_le (by simp)]
      · rw [if_neg h8]
        obtain ⟨ha, hb⟩ := ih (n + 1) (row.set n v hn) (by omega)
        refine ⟨fun h => ha (by omega), fun h => ?_⟩
        obtain ⟨row', e1, e2⟩ := hb (by omega)
        refine ⟨row', e1, ?_⟩
        rw [e2, htake, show 9 - n = (9 - (n + 1)) + 1 by omega, List.take_succ_cons]
        simp

/-- The row read from one line. -/
def lineRow (l : List Char) : Option (List UInt8) :=
  if 9 ≤ (l.filterMap cellValue).length then some ((l.filterMap cellValue).take 9) else none

theorem gridRow_getElem (g : Grid) (r : Fin 9) (j : Nat) (hj : j < 9) :
    (gridRow g r)[j]? = some (g[9 * r.val + j]'(by omega)) := by
  unfold gridRow
  rw [List.getElem?_ofFn]
  simp [hj]

theorem copyRow_get (g : Grid) (k : Nat) (hk : k < 9) (row : Vector UInt8 9) :
    ∃ g', copyRow g k row = .ok g' ∧ ∀ (r : Nat) (j : Nat) (hr : r < 9) (hj : j < 9),
      g'[9 * r + j]'(by omega) = if r = k then row[j] else g[9 * r + j]'(by omega) := by
  unfold copyRow
  rw [if_pos (by omega)]
  refine ⟨_, rfl, ?_⟩
  intro r j hr hj
  rw [Vector.getElem_ofFn]
  by_cases h : r = k
  · subst h
    rw [dif_pos (show 9 * r ≤ 9 * r + j ∧ 9 * r + j < 9 * r + 9 by omega), if_pos rfl]
    congr 1
    simp
  · rw [dif_neg (show ¬ (9 * k ≤ 9 * r + j ∧ 9 * r + j < 9 * k + 9) by omega), if_neg h]
    rfl

theorem copyRow_spec (g : Grid) (k : Nat) (hk : k < 9) (row : Vector UInt8 9) :
    ∃ g', copyRow g k row = .ok g' ∧
      ∀ r : Fin 9, gridRow g' r = if r.val = k then row.toList else gridRow g r := by
  obtain ⟨g', h1, h2⟩ := copyRow_get g k hk row
  refine ⟨g', h1, ?_⟩
  intro r
  apply List.ext_getElem?
  intro j
  by_cases hj : j < 9
  · rw [gridRow_getElem _ _ _ hj, h2 r.val j r.isLt hj]
    by_cases h : r.val = k
    · rw [if_pos h, if_pos h, List.getElem?_eq_getElem (by simpa using hj)]
      simp
    · rw [if_neg h, if_neg h, gridRow_getElem _ _ _ hj]
  · have e : ∀ g : Grid, (gridRow g r)[j]? = none := by
      intro g
      apply List.getElem?_eq_none
      unfold gridRow
      rw [List.length_ofFn]
      omega
    rw [e]
    split
    · rw [List.getElem?_eq_none (by simp; omega)]
    · rw [e]

theorem permLoop_spec : ∀ (ls : List (List Char)) (k : Nat) (g : Grid), k < 9 →
    (k + (ls.filterMap lineRow).length < 9 →
      permLoop ls k g = .ok (.error (k + (ls.filterMap lineRow).length))) ∧
    (9 ≤ k + (ls.filterMap lineRow).length → ∃ g', permLoop ls k g = .ok (.ok g') ∧
      ∀ r : Fin 9, some (gridRow g' r) =
        if r.val < k then some (gridRow g r) else (ls.filterMap lineRow)[r.val - k]?) := by
  intro ls
  induction ls with
  | nil => intro k g hk; exact ⟨fun _ => rfl, fun h => by simp at h; omega⟩
  | cons l ls ih =>
    intro k g hk
    obtain ⟨ha, hb⟩ := permRowLoop_spec l 0 (Vector.replicate 9 0) (by omega)
    simp only [Nat.zero_add] at ha hb
    by_cases h9 : 9 ≤ (l.filterMap cellValue).length
    · obtain ⟨row, e1, e2⟩ := hb h9
      have hrow : lineRow l = some row.toList := by
        unfold lineRow
        rw [if_pos h9, e2]; simp
      obtain ⟨g1, hc1, hc2⟩ := copyRow_spec g k hk row
      have hstep : permLoop (l :: ls) k g = if k + 1 = 9 then .ok (.ok g1) else permLoop ls (k + 1) g1 := by
        conv_lhs => unfold permLoop
        rw [e1]
        simp only [Res.ok_bind, hc1]
      rw [hstep]
      simp only [List.filterMap_cons, hrow, List.length_cons]
      by_cases h8 : k + 1 = 9
      · rw [if_pos h8]
        refine ⟨fun h => by omega, fun _ => ⟨g1, rfl, ?_⟩⟩
        intro r
        rw [hc2]
        by_cases hr : r.val = k
        · rw [if_pos hr, if_neg (by omega), show r.val - k = 0 by omega]; rfl
        · rw [if_neg hr, if_pos (by omega)]
      · rw [if_neg h8]
        obtain ⟨ia, ib⟩ := ih (k + 1) g1 (by omega)
        refine ⟨fun h => ?_, fun h => ?_⟩
        · rw [ia (by omega)]; congr 2; omega
        · obtain ⟨g', i1, i2⟩ := ib (by omega)
          refine ⟨g', i1, fun r => ?_⟩
          rw [i2, hc2]
          by_cases hr : r.val = k
          · rw [if_pos (by omega), if_pos hr, if_neg (by omega), show r.val - k = 0 by omega]; rfl
          · by_cases hr' : r.val < k
            · rw [if_pos (by omega), if_neg hr, if_pos hr']
            · rw [if_neg (by omega), if_neg hr', show r.val - k = (r.val - (k + 1)) + 1 by omega]; rfl
    · have hrow : lineRow l = none := by
        unfold lineRow
        rw [if_neg h9]
      have hstep : permLoop (l :: ls) k g = permLoop ls k g := by
        conv_lhs => unfold permLoop
        rw [ha (by omega)]
        simp only [Res.ok_bind]
        rw [if_neg (by omega)]
      rw [hstep]
      simp only [List.filterMap_cons, hrow]
      exact ih k g hk

end Verif.Sudoku
