import Verif.Model.Print
import Verif.Proofs.Items
import Verif.Spec.GridText

/-! Printing a grid state. -/
namespace Verif.Strat

open Verif Verif.GridText

/-- All candidates are digits. -/
def CellState.Fits : CellState → Prop
  | .digit _ => True
  | .candidates cands => Bitset.Fits 9 cands

theorem showU8_get : ∀ d : Digit, showU8 d.get = [digitChar d] := by decide +kernel

theorem shown_candidates (cands : DigitSet) : shown (.candidates cands) = Bitset.mems 9 cands := by
  unfold shown Bitset.mems
  dsimp only
  congr 1
  funext d
  rw [Bool.eq_iff_iff, decide_eq_true_iff, Bitset.mem_elems]

theorem length_shown_le (st : CellState) : (shown st).length ≤ 9 := by
  cases st with
  | digit d => simp [shown]
  | candidates cands =>
    unfold shown
    exact (List.length_filter_le _ _).trans (by simp)

theorem length_entry (l : List Digit) : (entry l).length = max l.length 1 := by
  unfold entry
  split
  · rename_i h; subst h; rfl
  · rename_i h
    have := List.length_pos_iff.mpr h
    rw [List.length_map]; omega

theorem length_entry_le (st : CellState) : (entry (shown st)).length ≤ 9 := by
  rw [length_entry]
  have := length_shown_le st
  omega

theorem len_eq_shown {cands : DigitSet} (h : Bitset.Fits 9 cands) :
    (Bitset.len cands).toNat = (shown (.candidates cands)).length := by
  rw [Bitset.len_eq_card (by omega), shown_candidates, Bitset.length_mems h]

theorem toNat_max (a b : UInt8) : (max a b).toNat = max a.toNat b.toNat := by
  rw [show max a b = if a ≤ b then b else a from rfl]
  by_cases h : a ≤ b
  · rw [if_pos h, Nat.max_eq_right (UInt8.le_iff_toNat_le.mp h)]
  · rw [if_neg h, Nat.max_eq_left]
    exact Nat.le_of_not_le fun hh => h (UInt8.le_iff_toNat_le.mpr hh)

theorem printedLen_toNat {st : CellState} (h : st.Fits) : (printedLen st).toNat = (entry (shown st)).length := by
  rw [length_entry]
  cases st with
  | digit d => rfl
  | candidates cands =>
    unfold printedLen
    dsimp only
    rw [toNat_max, len_eq_shown h]
    rfl

theorem text_eq {cands : DigitSet} (h : Bitset.Fits 9 cands) :
    digitsText cands = .ok (entry (shown (.candidates cands))) := by
  unfold digitsText
  rw [Bitset.items_eq (by omega) (by omega) h, Res.ok_bind, shown_candidates]
  unfold entry
  by_cases h0 : Bitset.isEmpty cands = true
  · have := (Bitset.isEmpty_iff (by omega)).mp h0
    subst this
    rw [if_pos h0, if_pos]
    rw [List.eq_nil_iff_forall_not_mem]
    intro d hd
    rw [Bitset.mem_mems] at hd
    simp at hd
  · rw [if_neg h0, if_neg]
    · congr 1
      have : (fun d : Digit => showU8 d.get) = fun d => [digitChar d] := funext showU8_get
      rw [this, ← List.map_eq_flatMap]
    · intro hd
      have hz : cands ≠ 0#16 := fun hz => h0 ((Bitset.isEmpty_iff (by omega)).mpr hz)
      obtain ⟨i, hi⟩ := Bitset.ne_zero_iff.mp hz
      have : (⟨i, h i hi⟩ : Digit) ∈ Bitset.mems 9 cands := Bitset.mem_mems.mpr hi
      rw [hd] at this
      cases this

theorem padRight_eq (n : Nat) (l : List Char) : padRight n l = padded n l := rfl

theorem entry_digit (d : Digit) : entry (shown (.digit d)) = [digitChar d] := by simp [shown, entry]

theorem padRight_space (n : Nat) (h : 0 < n) : padRight n [' '] = List.replicate n ' ' := by
  unfold padRight
  obtain ⟨m, rfl⟩ : ∃ m, n = m + 1 := ⟨n - 1, by omega⟩
  simp [List.replicate_succ]

theorem CellState.display_eq {st : CellState} (h : st.Fits) (width : Option Nat) :
    st.display width = .ok (padded (width.getD 0) (entry (shown st))) := by
  cases st with
  | digit d =>
    unfold CellState.display
    dsimp only
    rw [showU8_get, padRight_eq, entry_digit]
  | candidates cands =>
    unfold CellState.display
    dsimp only
    rw [text_eq h, Res.ok_bind]
    congr 1
    rw [toNat_max, len_eq_shown h]
    unfold padded
    rw [length_entry]
    congr 1
    have h1 : (1 : UInt8).toNat = 1 := rfl
    rw [h1]
    split
    · rename_i hp; exact padRight_space _ hp
    · rename_i hp
      have : width.getD 0 - max (shown (CellState.candidates cands)).length 1 = 0 := by omega
      rw [this]; rfl

theorem addU8_ok {a b : UInt8} (h : a.toNat + b.toNat < 256) : addU8 a b = .ok (a + b) ∧ (a + b).toNat = a.toNat + b.toNat := by
  constructor
  · unfold addU8
    rw [decide_eq_true h]; rfl
  · rw [UInt8.toNat_add]; exact Nat.mod_eq_of_lt h

theorem subU8_ok {a b : UInt8} (h : b.toNat ≤ a.toNat) : subU8 a b = .ok (a - b) ∧ (a - b).toNat = a.toNat - b.toNat := by
  have h' : b ≤ a := UInt8.le_iff_toNat_le.mpr h
  constructor
  · unfold subU8
    rw [decide_eq_true h']; rfl
  · exact UInt8.toNat_sub_of_le _ _ h'

theorem printCell_eq {st : CellState} (h : st.Fits) {w : UInt8} (h1 : (entry (shown st)).length ≤ w.toNat) (h2 : w.toNat ≤ 9) :
    printCell w st = .ok ([' '] ++ padded w.toNat (entry (shown st)) ++ [' ']) := by
  cases st with
  | digit d =>
    unfold printCell
    dsimp only
    rw [showU8_get, padRight_eq, entry_digit]
  | candidates cands =>
    unfold printCell
    dsimp only
    have one : (1 : UInt8).toNat = 1 := rfl
    obtain ⟨e1, e2⟩ := addU8_ok (a := 1) (b := w) (by omega)
    have e0 : (max (Bitset.len cands) 1).toNat = (entry (shown (.candidates cands))).length := by
      rw [toNat_max, len_eq_shown h, length_entry]; rfl
    obtain ⟨e3, e4⟩ := subU8_ok (a := 1 + w) (b := max (Bitset.len cands) 1) (by rw [e0, e2]; omega)
    rw [text_eq h, Res.ok_bind, e1, Res.ok_bind, e3, Res.ok_bind]
    congr 1
    rw [List.append_assoc, List.append_assoc]
    congr 1
    unfold padded
    rw [List.append_assoc]
    congr 1
    rw [e4, e0, e2, padRight_space _ (by omega)]
    rw [show (1 : UInt8).toNat + w.toNat - (entry (shown (.candidates cands))).length =
      (w.toNat - (entry (shown (.candidates cands))).length) + 1 by omega]
    rw [List.replicate_succ']

theorem getElem_fromCoords (grid : Vector CellState 81) (row col : Fin 9) :
    grid[Pos.fromCoords row col] = grid[9 * row.val + col.val]'(by omega) := by
  show grid[row.val * 9 + col.val]'_ = _
  congr 1
  omega

theorem foldl_max_toNat (l : List UInt8) : ∀ a : UInt8, (l.foldl max a).toNat = (l.map UInt8.toNat).foldl max a.toNat := by
  induction l with
  | nil => intro a; rfl
  | cons x xs ih => intro a; rw [List.foldl_cons, ih, toNat_max]; rfl

theorem foldl_max_finRange (f : Fin 9 → Nat) : ((List.finRange 9).map f).foldl max 0 = Finset.univ.sup f := by
  apply le_antisymm
  · have : ∀ (l : List Nat) (a b : Nat), a ≤ b → (∀ x ∈ l, x ≤ b) → l.foldl max a ≤ b := by
      intro l
      induction l with
      | nil => intro a b h _; exact h
      | cons x xs ih =>
        intro a b h hx
        exact ih _ _ (max_le h (hx x (by simp))) (fun y hy => hx y (by simp [hy]))
    apply this _ _ _ (Nat.zero_le _)
    intro x hx
    obtain ⟨i, -, rfl⟩ := List.mem_map.mp hx
    exact Finset.le_sup (Finset.mem_univ i)
  · apply Finset.sup_le
    intro i _
    have : ∀ (l : List Nat) (a : Nat), a ≤ l.foldl max a ∧ ∀ x ∈ l, x ≤ l.foldl max a := by
      intro l
      induction l with
      | nil => intro a; exact ⟨le_refl _, by simp⟩
      | cons x xs ih =>
        intro a
        obtain ⟨i1, i2⟩ := ih (max a x)
        refine ⟨(le_max_left _ _).trans i1, fun y hy => ?_⟩
        rcases List.mem_cons.mp hy with rfl | hy
        · exact (le_max_right _ _).trans i1
        · exact i2 y hy
    exact (this _ 0).2 _ (List.mem_map.mpr ⟨i, List.mem_finRange i, rfl⟩)

variable {grid : Vector CellState 81}

theorem columnWidth_toNat (h : ∀ c : Fin 81, grid[c].Fits) (col : Fin 9) :
    (columnWidth grid col).toNat = width (entries grid) col := by
  unfold columnWidth
  rw [foldl_max_toNat, List.map_map]
  rw [show (0 : UInt8).toNat = 0 from rfl, foldl_max_finRange]
  unfold width
  congr 1
  funext row
  show (printedLen _).toNat = _
  rw [printedLen_toNat (h _)]
  unfold entries
  rw [getElem_fromCoords]

theorem width_le (grid : Vector CellState 81) (col : Fin 9) : width (entries grid) col ≤ 9 :=
  Finset.sup_le fun _ _ => length_entry_le _

theorem length_le_width (e : Fin 9 → Fin 9 → List Char) (row col : Fin 9) : (e row col).length ≤ width e col :=
  Finset.le_sup (f := fun row => (e row col).length) (Finset.mem_univ row)

theorem finRange3 : List.finRange 3 = [0, 1, 2] := by decide

theorem sum3 {a b c : UInt8} (ha : a.toNat ≤ 9) (hb : b.toNat ≤ 9) (hc : c.toNat ≤ 9) :
    (do let n ← addU8 0 a; let n ← addU8 n b; addU8 n c) = .ok (0 + a + b + c) ∧
      (0 + a + b + c).toNat = a.toNat + b.toNat + c.toNat := by
  have zero : (0 : UInt8).toNat = 0 := rfl
  obtain ⟨e1, f1⟩ := addU8_ok (a := 0) (b := a) (by omega)
  obtain ⟨e2, f2⟩ := addU8_ok (a := 0 + a) (b := b) (by omega)
  obtain ⟨e3, f3⟩ := addU8_ok (a := 0 + a + b) (b := c) (by omega)
  rw [e1, Res.ok_bind, e2, Res.ok_bind, e3]
  exact ⟨rfl, by omega⟩

theorem stackLength_eq (h : ∀ c : Fin 81, grid[c].Fits) (k : Fin 3) : stackLength grid k =
    .ok (width (entries grid) (stackCol k 0) + width (entries grid) (stackCol k 1) + width (entries grid) (stackCol k 2)) := by
  have w : ∀ col, (columnWidth grid col).toNat ≤ 9 := fun col => by rw [columnWidth_toNat h]; exact width_le _ _
  obtain ⟨e1, e2⟩ := sum3 (w (stackCol k 0)) (w (stackCol k 1)) (w (stackCol k 2))
  have e3 : (List.finRange 3).foldlM (fun n col => addU8 n (columnWidth grid (stackCol k col))) 0 =
      .ok (0 + columnWidth grid (stackCol k 0) + columnWidth grid (stackCol k 1) + columnWidth grid (stackCol k 2)) := by
    rw [← e1, finRange3]
    simp only [List.foldlM_cons, List.foldlM_nil, bind_pure]
  unfold stackLength
  rw [e3, Res.ok_bind, e2, columnWidth_toNat h, columnWidth_toNat h, columnWidth_toNat h]

theorem printRow_eq (h : ∀ c : Fin 81, grid[c].Fits) (row : Fin 9) :
    printRow grid '│' row = .ok (rowText (entries grid) row ++ ['\n']) := by
  have cell : ∀ col : Fin 9, printCell (columnWidth grid col) grid[Pos.fromCoords row col] =
      .ok ([' '] ++ padded (width (entries grid) col) (entries grid row col) ++ [' ']) := by
    intro col
    have e : grid[Pos.fromCoords row col] = grid[9 * row.val + col.val]'(by omega) := getElem_fromCoords _ _ _
    rw [printCell_eq (h _)]
    · rw [columnWidth_toNat h, e]; rfl
    · rw [columnWidth_toNat h, e]; exact length_le_width (entries grid) row col
    · rw [columnWidth_toNat h]; exact width_le _ _
  unfold printRow
  simp only [cell]
  have inner : ∀ k : Fin 3, ((List.finRange 3).mapM fun col =>
      (Res.ok ([' '] ++ padded (width (entries grid) (stackCol k col)) (entries grid row (stackCol k col)) ++ [' ']) :
        Res (List Char))) = .ok ((List.finRange 3).map fun col =>
          [' '] ++ padded (width (entries grid) (stackCol k col)) (entries grid row (stackCol k col)) ++ [' ']) :=
    fun k => Res.mapM_ok _ _ _ (fun _ _ => rfl)
  simp only [inner, Res.ok_bind]
  rw [Res.mapM_ok _ _ _ (fun _ _ => rfl), Res.ok_bind]
  congr 1
  unfold rowText framed
  simp only [finRange3, List.map_cons, List.map_nil, List.flatten_cons, List.flatten_nil, List.append_assoc, List.append_nil,
    List.nil_append, List.cons_append]
  rfl

theorem printSeparator_eq (e : Fin 9 → Fin 9 → List Char) (l m r : Char) : printSeparator l m r '─'
    (width e (stackCol 0 0) + width e (stackCol 0 1) + width e (stackCol 0 2),
      width e (stackCol 1 0) + width e (stackCol 1 1) + width e (stackCol 1 2),
      width e (stackCol 2 0) + width e (stackCol 2 1) + width e (stackCol 2 2)) = rule e l m r ++ ['\n'] := by
  unfold printSeparator rule framed
  have key : ∀ a b c : Nat, List.replicate (a + b + c + 6) '─' = List.replicate (1 + a + 1) '─' ++
      List.replicate (1 + b + 1) '─' ++ List.replicate (1 + c + 1) '─' := by
    intro a b c
    rw [← List.replicate_add, ← List.replicate_add]
    congr 1
    omega
  dsimp only
  rw [key, key, key]
  simp only [List.append_assoc]
  rfl

theorem printGridState_eq (h : ∀ c : Fin 81, grid[c].Fits) : printGridState grid = .ok (table (entries grid)) := by
  unfold printGridState
  simp only [stackLength_eq h, Res.ok_bind, printSeparator_eq, printRow_eq h]
  have inner : ∀ k : Fin 3, ((List.finRange 3).mapM fun row =>
      (Res.ok (rowText (entries grid) (stackCol k row) ++ ['\n']) : Res (List Char))) =
        .ok ((List.finRange 3).map fun row => rowText (entries grid) (stackCol k row) ++ ['\n']) :=
    fun k => Res.mapM_ok _ _ _ (fun _ _ => rfl)
  simp only [inner, Res.ok_bind]
  rw [Res.mapM_ok _ _ _ (fun _ _ => rfl), Res.ok_bind]
  refine congrArg Res.ok ?_
  unfold table tableLines
  simp only [finRange3, List.map_cons, List.map_nil, List.flatten_cons, List.flatten_nil, List.append_assoc, List.append_nil,
    List.nil_append, List.flatMap_cons, List.flatMap_nil]
  have s : stackCol 0 0 = 0 ∧ stackCol 0 1 = 1 ∧ stackCol 0 2 = 2 ∧ stackCol 1 0 = 3 ∧ stackCol 1 1 = 4 ∧
    stackCol 1 2 = 5 ∧ stackCol 2 0 = 6 ∧ stackCol 2 1 = 7 ∧ stackCol 2 2 = 8 := by decide
  have t : (0 : Fin 3) ≠ 2 ∧ (1 : Fin 3) ≠ 2 := by decide
  rw [if_pos t.1, if_pos t.2, if_neg (by simp), List.nil_append]
  simp only [s, List.append_assoc]

end Verif.Strat
