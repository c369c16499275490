import Verif.Model.Rectangles
import Verif.Spec.Rectangles
import Verif.Proofs.Items
import Mathlib.Tactic.Tauto
import Mathlib.Tactic.FinCases

/-! Lemmas about avoidable rectangles. -/
namespace Verif.Rectangles

open Verif Strat Bitset

theorem fromCoords_eq (r c : Fin 9) : Pos.fromCoords r c = cellAt r c := by
  apply Fin.ext
  show r.val * 9 + c.val = 9 * r.val + c.val
  omega

theorem get_inj' {a b : Digit} : a.get = b.get ↔ a = b := by
  revert a b; decide +kernel

theorem digitOf_eq {v : UInt8} (h0 : v ≠ 0) (h9 : v ≤ 9) : ∃ d : Digit, d.get = v ∧ digitOf v = .ok d := by
  have h0' : v.toNat ≠ 0 := fun h => h0 (UInt8.toNat_inj.mp h)
  have h9' : v.toNat ≤ 9 := by simpa [UInt8.le_iff_toNat_le] using h9
  refine ⟨⟨v.toNat - 1, by omega⟩, ?_, ?_⟩
  · apply UInt8.toNat_inj.mp
    simp only [Digit.get]
    simp
    omega
  · unfold digitOf
    rw [dif_pos ⟨by omega, h9'⟩]

theorem look_zero {filled clues : Grid} {x : Corners} {cell : Fin 81} (h : filled[cell] = 0) :
    Corners.look filled clues x cell = .ok { x with free := cell } := by
  unfold Corners.look
  rw [if_pos h]

theorem look_digit {filled clues : Grid} {x : Corners} {cell : Fin 81} {d : Digit} (hd : filled[cell] ≠ 0)
    (e : digitOf filled[cell] = .ok d) :
    Corners.look filled clues x cell = .ok { x with
      digits := union x.digits (asSet 16 d.val)
      nSet := x.nSet + 1
      nClues := if clues[cell] ≠ 0 then x.nClues + 1 else x.nClues } := by
  unfold Corners.look
  rw [if_neg hd, e]
  rfl

/-- The code after the corners were looked at. -/
def finish (cp : Vector DigitSet 81) (ls : LineSet) (x : Corners) : Res (Option (LineSet × Candidate)) :=
  if x.nSet = 3 ∧ x.nClues = 0 ∧ len x.digits = 2 then
    let candidates := cp[x.free]
    if overlaps candidates x.digits then do
      match ← uniqueItem 9 (inter candidates x.digits) with
      | .error () => .err
      | .ok none => .ok none
      | .ok (some digit) => .ok (some (ls, ⟨x.free, digit⟩))
    else .ok none
  else .ok none

def linesOf (row1 row2 col1 col2 : Fin 9) : LineSet :=
  union (union (union (asSet 32 (Pos.rowLine row1).val) (asSet 32 (Pos.rowLine row2).val))
    (asSet 32 (Pos.colLine col1).val)) (asSet 32 (Pos.colLine col2).val)

theorem elems_linesOf (r r' c c' : Fin 9) :
    elems (linesOf r r' c c') = {r.val, r'.val, 9 + c.val, 9 + c'.val} := by
  ext i
  rw [mem_elems]
  unfold linesOf
  simp only [bit_union, Bool.or_eq_true, Finset.mem_insert, Finset.mem_singleton]
  rw [bit_asSet (by omega), bit_asSet (by omega), bit_asSet (by omega), bit_asSet (by omega)]
  simp only [Pos.rowLine, Pos.colLine]
  omega

theorem rectangleAt_eq (filled clues : Grid) (cp : Vector DigitSet 81) (row1 row2 col1 col2 : Fin 9) :
    rectangleAt filled clues cp row1 row2 col1 col2 =
      if (row1.val / 3 = row2.val / 3 ↔ col1.val / 3 = col2.val / 3) then .ok none
      else [cellAt row1 col1, cellAt row1 col2, cellAt row2 col1, cellAt row2 col2].foldlM (Corners.look filled clues)
        ⟨0, 0, NONE 16, 0⟩ >>= finish cp (linesOf row1 row2 col1 col2) := by
  unfold rectangleAt
  simp only [fromCoords_eq]
  by_cases h1 : row1.val / 3 = row2.val / 3 <;> by_cases h2 : col1.val / 3 = col2.val / 3 <;> simp [h1, h2] <;> rfl

/-- The cell and the digit of `e` as the code finds them, for a free corner `a`, other corners with digits `x`, `y`, `z`. -/
structure Found (cp : Vector DigitSet 81) (a : Fin 81) (x y z : Digit) (e : Candidate) : Prop where
  two : ({x.get, y.get, z.get} : Finset UInt8).card = 2
  cell : e.cell = a
  digit : e.digit = x ∨ e.digit = y ∨ e.digit = z
  cand : cp[e.cell].getLsbD e.digit.val = true
  only : ∀ d : Digit, d = x ∨ d = y ∨ d = z → cp[e.cell].getLsbD d.val = true → d = e.digit

theorem finish_spec {cp : Vector DigitSet 81} (hf : ∀ c : Fin 81, Fits 9 cp[c]) (ls : LineSet) (c : Corners) (x y z : Digit)
    (hs : c.nSet = 3) (hd : c.digits = union (union (union (NONE 16) (asSet 16 x.val)) (asSet 16 y.val)) (asSet 16 z.val)) :
    ∃ o, finish cp ls c = .ok o ∧ ∀ ls' e, o = some (ls', e) ↔ ls' = ls ∧ c.nClues = 0 ∧ Found cp c.free x y z e := by
  have hb : ∀ j, c.digits.getLsbD j = true ↔ j = x.val ∨ j = y.val ∨ j = z.val := by
    intro j
    rw [hd]
    simp only [bit_union, Bool.or_eq_true, bit_none]
    rw [bit_asSet (by omega), bit_asSet (by omega), bit_asSet (by omega)]
    simp only [Bool.false_eq_true, false_or]
    omega
  have hl : len c.digits = 2 ↔ ({x.get, y.get, z.get} : Finset UInt8).card = 2 := by
    rw [hd]; clear hb hd hs hf
    revert x y z; decide +kernel
  unfold finish
  by_cases hc : c.nSet = 3 ∧ c.nClues = 0 ∧ len c.digits = 2
  · rw [if_pos hc]
    have h2 := hl.mp hc.2.2
    by_cases ho : overlaps cp[c.free] c.digits = true
    · simp only [ho, if_true]
      have hff : Fits 9 (inter cp[c.free] c.digits) := by
        intro i hi
        rw [bit_inter, Bool.and_eq_true] at hi
        exact hf _ i hi.1
      have hbi : ∀ d : Digit, (inter cp[c.free] c.digits).getLsbD d.val = true ↔
          cp[c.free].getLsbD d.val = true ∧ (d = x ∨ d = y ∨ d = z) := by
        intro d
        rw [bit_inter, Bool.and_eq_true, hb]
        simp only [Fin.ext_iff]
      rcases uniqueItem_spec (by decide) (by decide) (by decide) hff with ⟨h, e⟩ | ⟨i, h, e⟩ | ⟨h, e⟩
      · exfalso
        obtain ⟨j, h1, h2⟩ := overlaps_iff.mp ho
        have : (inter cp[c.free] c.digits).getLsbD j = true := by rw [bit_inter, h1, h2]; rfl
        rw [h] at this
        simp at this
      · rw [e]
        refine ⟨_, rfl, fun ls' e => ?_⟩
        have h' : ∀ d : Digit, (inter cp[c.free] c.digits).getLsbD d.val = true ↔ d = i := by
          intro d; rw [h, Fin.ext_iff]
        have hi := (hbi i).mp ((h' i).mpr rfl)
        constructor
        · intro he
          cases he
          refine ⟨rfl, hc.2.1, h2, rfl, hi.2, hi.1, fun d hd hcd => ?_⟩
          exact (h' d).mp ((hbi d).mpr ⟨hcd, hd⟩)
        · rintro ⟨rfl, -, hF⟩
          obtain ⟨cell, d⟩ := e
          obtain rfl : cell = c.free := hF.cell
          have := (h' d).mp ((hbi d).mpr ⟨hF.cand, hF.digit⟩)
          rw [this]
      · rw [e]
        refine ⟨_, rfl, fun ls' e => ⟨fun he => (by cases he), ?_⟩⟩
        rintro ⟨-, -, hF⟩
        exfalso
        have : elems (inter cp[c.free] c.digits) ⊆ {e.digit.val} := by
          intro j hj
          rw [mem_elems] at hj
          have hj9 := hff j hj
          have hk := (hbi ⟨j, hj9⟩).mp hj
          rw [Finset.mem_singleton, ← hF.only _ hk.2 (by simp only [hF.cell]; exact hk.1)]
        have := Finset.card_le_card this
        rw [Finset.card_singleton] at this
        omega
    · simp only [ho]
      refine ⟨_, rfl, fun ls' e => ⟨fun he => (by cases he), ?_⟩⟩
      rintro ⟨-, -, hF⟩
      exfalso
      apply ho
      refine overlaps_iff.mpr ⟨e.digit.val, (by have := hF.cand; simp only [hF.cell] at this; exact this), (hb _).mpr ?_⟩
      simpa only [Fin.ext_iff] using hF.digit
  · rw [if_neg hc]
    refine ⟨_, rfl, fun ls' e => ⟨fun he => (by cases he), ?_⟩⟩
    rintro ⟨-, h0, hF⟩
    exact absurd ⟨hs, h0, hl.mpr hF.two⟩ hc

theorem finish_none {cp : Vector DigitSet 81} (ls : LineSet) (c : Corners) (hs : c.nSet ≠ 3) : finish cp ls c = .ok none := by
  unfold finish
  rw [if_neg (fun h => hs h.1)]

/-- The candidates of a cell in the solver's table. -/
def Cand (cp : Vector DigitSet 81) (cell : Fin 81) (d : Digit) : Prop := cp[cell].getLsbD d.val = true

theorem avoidable_iff {filled clues : Grid} {cp : Vector DigitSet 81} {r r' c c' : Fin 9} (hr : r ≠ r') (hc : c ≠ c')
    (hb : ¬ (r.val / 3 = r'.val / 3 ↔ c.val / 3 = c'.val / 3)) {x y z : Digit} (ha : filled[cellAt r c] = 0)
    (hx : filled[cellAt r c'] ≠ 0) (ex : x.get = filled[cellAt r c']) (hy : filled[cellAt r' c] ≠ 0)
    (ey : y.get = filled[cellAt r' c]) (hz : filled[cellAt r' c'] ≠ 0) (ez : z.get = filled[cellAt r' c']) (e : Candidate) :
    Avoidable filled clues (Cand cp) r r' c c' e ↔
      (clues[cellAt r c'] = 0 ∧ clues[cellAt r' c] = 0 ∧ clues[cellAt r' c'] = 0) ∧ Found cp (cellAt r c) x y z e := by
  constructor
  · rintro ⟨-, -, -, cell, free, f1, f2, f3, two, digit, cand, only⟩
    rw [← ex, ← ey, ← ez] at two digit only
    simp only [get_inj'] at digit only
    exact ⟨⟨f1.2, f2.2, f3.2⟩, two, cell, digit, cand, only⟩
  · rintro ⟨⟨f1, f2, f3⟩, two, cell, digit, cand, only⟩
    refine ⟨hr, hc, hb, cell, ha, ⟨hx, f1⟩, ⟨hy, f2⟩, ⟨hz, f3⟩, ?_, ?_, cand, ?_⟩ <;> rw [← ex, ← ey, ← ez]
    · exact two
    · simpa only [get_inj'] using digit
    · simp only [get_inj']; exact only

theorem Found.perm {cp : Vector DigitSet 81} {a : Fin 81} {x y z x' y' z' : Digit} {e : Candidate} (h : Found cp a x y z e)
    (hp : ∀ d : Digit, (d = x ∨ d = y ∨ d = z) ↔ (d = x' ∨ d = y' ∨ d = z')) : Found cp a x' y' z' e := by
  obtain ⟨two, cell, digit, cand, only⟩ := h
  refine ⟨?_, cell, (hp _).mp digit, cand, fun d hd => only d ((hp d).mpr hd)⟩
  rw [← two]
  congr 1
  have : ∀ x y z : Digit, ({x.get, y.get, z.get} : Finset UInt8) = ({x, y, z} : Finset Digit).image Digit.get := by
    intro x y z; simp
  rw [this, this]
  congr 1
  ext d
  simp [hp d]

theorem found_swap1 {cp : Vector DigitSet 81} {a : Fin 81} {x y z : Digit} {e : Candidate} :
    Found cp a x y z e ↔ Found cp a x z y e := ⟨fun h => h.perm (by tauto), fun h => h.perm (by tauto)⟩
theorem found_swap2 {cp : Vector DigitSet 81} {a : Fin 81} {x y z : Digit} {e : Candidate} :
    Found cp a x y z e ↔ Found cp a y x z e := ⟨fun h => h.perm (by tauto), fun h => h.perm (by tauto)⟩

/-- The rectangle with one of its four corners as the free one. -/
def Any (filled clues : Grid) (cp : Vector DigitSet 81) (r r' c c' : Fin 9) (e : Candidate) : Prop :=
  Avoidable filled clues (Cand cp) r r' c c' e ∨ Avoidable filled clues (Cand cp) r r' c' c e ∨
  Avoidable filled clues (Cand cp) r' r c c' e ∨ Avoidable filled clues (Cand cp) r' r c' c e

theorem count_clues (a b c : UInt8) :
    (if c ≠ 0 then (if b ≠ 0 then (if a ≠ 0 then 0 + 1 else 0) + 1 else (if a ≠ 0 then 0 + 1 else 0)) + 1
      else (if b ≠ 0 then (if a ≠ 0 then 0 + 1 else 0) + 1 else (if a ≠ 0 then 0 + 1 else 0))) = 0 ↔
    a = 0 ∧ b = 0 ∧ c = 0 := by
  by_cases ha : a = 0 <;> by_cases hb : b = 0 <;> by_cases hc : c = 0 <;> simp [ha, hb, hc]

theorem perm1 (a b c : Prop) : (a ∧ b ∧ c) ↔ (a ∧ c ∧ b) := by tauto
theorem perm2 (a b c : Prop) : (a ∧ b ∧ c) ↔ (b ∧ c ∧ a) := by tauto
theorem perm3 (a b c : Prop) : (a ∧ b ∧ c) ↔ (c ∧ b ∧ a) := by tauto

theorem rectangleAt_spec {filled clues : Grid} (hw : WellFormed filled) {cp : Vector DigitSet 81}
    (hf : ∀ c : Fin 81, Fits 9 cp[c]) {r r' c c' : Fin 9} (hr : r ≠ r') (hc : c ≠ c') :
    ∃ o, rectangleAt filled clues cp r r' c c' = .ok o ∧
      ∀ ls e, o = some (ls, e) ↔ ls = linesOf r r' c c' ∧ Any filled clues cp r r' c c' e := by
  rw [rectangleAt_eq]
  by_cases hb : (r.val / 3 = r'.val / 3 ↔ c.val / 3 = c'.val / 3)
  · rw [if_pos hb]
    refine ⟨_, rfl, fun ls e => ⟨fun h => (by cases h), ?_⟩⟩
    rintro ⟨-, h | h | h | h⟩ <;> exfalso <;> apply h.blocks <;> omega
  rw [if_neg hb]
  have hb2 : ¬ (r.val / 3 = r'.val / 3 ↔ c'.val / 3 = c.val / 3) := by omega
  have hb3 : ¬ (r'.val / 3 = r.val / 3 ↔ c.val / 3 = c'.val / 3) := by omega
  have hb4 : ¬ (r'.val / 3 = r.val / 3 ↔ c'.val / 3 = c.val / 3) := by omega
  have split : ∀ cell : Fin 81,
      (filled[cell] = 0 ∧ ∀ x, Corners.look filled clues x cell = .ok { x with free := cell }) ∨
      ∃ d : Digit, filled[cell] ≠ 0 ∧ d.get = filled[cell] ∧ ∀ x, Corners.look filled clues x cell = .ok { x with
        digits := union x.digits (asSet 16 d.val)
        nSet := x.nSet + 1
        nClues := if clues[cell] ≠ 0 then x.nClues + 1 else x.nClues } := by
    intro cell
    by_cases h : filled[cell] = 0
    · exact Or.inl ⟨h, fun x => look_zero h⟩
    · obtain ⟨d, h1, h2⟩ := digitOf_eq h (hw cell)
      exact Or.inr ⟨d, h, h1, fun x => look_digit h h2⟩
  have none : ∀ x : Corners, x.nSet ≠ 3 → (∀ e, ¬ Any filled clues cp r r' c c' e) →
      ∃ o, ((Res.ok x) >>= finish cp (linesOf r r' c c')) = .ok o ∧
      ∀ ls e, o = some (ls, e) ↔ ls = linesOf r r' c c' ∧ Any filled clues cp r r' c c' e := by
    intro x hx hn
    rw [Res.ok_bind, finish_none _ _ hx]
    exact ⟨_, rfl, fun ls e => ⟨fun h => (by cases h), fun h => absurd h.2 (hn e)⟩⟩
  have some : ∀ (x : Corners) (a b d : Digit), x.nSet = 3 →
      x.digits = union (union (union (NONE 16) (asSet 16 a.val)) (asSet 16 b.val)) (asSet 16 d.val) →
      (∀ e, Any filled clues cp r r' c c' e ↔ x.nClues = 0 ∧ Found cp x.free a b d e) →
      ∃ o, ((Res.ok x) >>= finish cp (linesOf r r' c c')) = .ok o ∧
      ∀ ls e, o = some (ls, e) ↔ ls = linesOf r r' c c' ∧ Any filled clues cp r r' c c' e := by
    intro x a b d hs hd hi
    obtain ⟨o, e, ho⟩ := finish_spec hf (linesOf r r' c c') x a b d hs hd
    exact ⟨o, by rw [Res.ok_bind, e], fun ls e => by rw [ho, hi]⟩
  rcases split (cellAt r c) with ⟨h1, e1⟩ | ⟨d1, h1, g1, e1⟩ <;> rcases split (cellAt r c') with ⟨h2, e2⟩ | ⟨d2, h2, g2, e2⟩ <;>
    rcases split (cellAt r' c) with ⟨h3, e3⟩ | ⟨d3, h3, g3, e3⟩ <;>
    rcases split (cellAt r' c') with ⟨h4, e4⟩ | ⟨d4, h4, g4, e4⟩ <;>
    simp only [List.foldlM_cons, List.foldlM_nil, e1, e2, e3, e4, Res.ok_bind]
  case inl.inr.inr.inr =>
    refine some _ d2 d3 d4 rfl rfl (fun e => ?_)
    refine Iff.trans ?_ ((avoidable_iff (clues := clues) hr hc hb h1 h2 g2 h3 g3 h4 g4 e).trans (and_congr_left' (count_clues _ _ _).symm))
    exact ⟨fun h => h.elim id (fun h => h.elim (fun h => absurd h.free h2) (fun h => h.elim (fun h => absurd h.free h3)
      (fun h => absurd h.free h4))), Or.inl⟩
  case inr.inl.inr.inr =>
    refine some _ d1 d3 d4 rfl rfl (fun e => ?_)
    refine Iff.trans ?_ (((avoidable_iff (clues := clues) hr hc.symm hb2 h2 h1 g1 h4 g4 h3 g3 e).trans (and_congr_right' found_swap1)).trans
      (and_congr_left' ((perm1 _ _ _).trans (count_clues _ _ _).symm)))
    exact ⟨fun h => h.elim (fun h => absurd h.free h1) (fun h => h.elim id (fun h => h.elim (fun h => absurd h.free h3)
      (fun h => absurd h.free h4))), fun h => Or.inr (Or.inl h)⟩
  case inr.inr.inl.inr =>
    refine some _ d1 d2 d4 rfl rfl (fun e => ?_)
    refine Iff.trans ?_ (((avoidable_iff (clues := clues) hr.symm hc hb3 h3 h4 g4 h1 g1 h2 g2 e).trans
      (and_congr_right' (found_swap2.trans found_swap1))).trans (and_congr_left' ((perm2 _ _ _).trans (count_clues _ _ _).symm)))
    exact ⟨fun h => h.elim (fun h => absurd h.free h1) (fun h => h.elim (fun h => absurd h.free h2) (fun h => h.elim id
      (fun h => absurd h.free h4))), fun h => Or.inr (Or.inr (Or.inl h))⟩
  case inr.inr.inr.inl =>
    refine some _ d1 d2 d3 rfl rfl (fun e => ?_)
    refine Iff.trans ?_ (((avoidable_iff (clues := clues) hr.symm hc.symm hb4 h4 h3 g3 h2 g2 h1 g1 e).trans
      (and_congr_right' (found_swap1.trans (found_swap2.trans found_swap1)))).trans
      (and_congr_left' ((perm3 _ _ _).trans (count_clues _ _ _).symm)))
    exact ⟨fun h => h.elim (fun h => absurd h.free h1) (fun h => h.elim (fun h => absurd h.free h2)
      (fun h => h.elim (fun h => absurd h.free h3) id)), fun h => Or.inr (Or.inr (Or.inr h))⟩
  all_goals
    refine none _ (by simp) (fun e h => ?_)
    rcases h with h | h | h | h
    all_goals
      first
      | exact absurd h.free ‹_›
      | exact h.filled1.1 ‹_›
      | exact h.filled2.1 ‹_›
      | exact h.filled3.1 ‹_›

theorem any_iff {filled clues : Grid} {cp : Vector DigitSet 81} {e : Candidate} {ls : LineSet} :
    (∃ r r' c c' : Fin 9, r < r' ∧ c < c' ∧ ls = linesOf r r' c c' ∧ Any filled clues cp r r' c c' e) ↔
    ∃ r r' c c' : Fin 9, Avoidable filled clues (Cand cp) r r' c c' e ∧
      elems ls = {r.val, r'.val, 9 + c.val, 9 + c'.val} := by
  have eqs : ∀ {r r' c c' : Fin 9}, ls = linesOf r r' c c' ↔ elems ls = {r.val, r'.val, 9 + c.val, 9 + c'.val} := by
    intro r r' c c'
    rw [← elems_linesOf, elems_inj]
  have s1 : ∀ r r' c c' : Fin 9, ({r.val, r'.val, 9 + c.val, 9 + c'.val} : Finset Nat) =
      {r'.val, r.val, 9 + c.val, 9 + c'.val} := fun r r' c c' => Finset.insert_comm _ _ _
  have s2 : ∀ r r' c c' : Fin 9, ({r.val, r'.val, 9 + c.val, 9 + c'.val} : Finset Nat) =
      {r.val, r'.val, 9 + c'.val, 9 + c.val} := by
    intro r r' c c'
    rw [Finset.pair_comm (9 + c.val)]
  constructor
  · rintro ⟨r, r', c, c', -, -, hl, h⟩
    rw [eqs] at hl
    rcases h with h | h | h | h
    · exact ⟨_, _, _, _, h, hl⟩
    · exact ⟨_, _, _, _, h, hl.trans (s2 _ _ _ _)⟩
    · exact ⟨_, _, _, _, h, hl.trans (s1 _ _ _ _)⟩
    · exact ⟨_, _, _, _, h, hl.trans ((s1 _ _ _ _).trans (s2 _ _ _ _))⟩
  · rintro ⟨r, r', c, c', h, hl⟩
    rcases lt_or_gt_of_ne h.rows with h1 | h1 <;> rcases lt_or_gt_of_ne h.cols with h2 | h2
    · exact ⟨_, _, _, _, h1, h2, eqs.mpr hl, Or.inl h⟩
    · exact ⟨_, _, _, _, h1, h2, eqs.mpr (hl.trans (s2 _ _ _ _)), Or.inr (Or.inl h)⟩
    · exact ⟨_, _, _, _, h1, h2, eqs.mpr (hl.trans (s1 _ _ _ _)), Or.inr (Or.inr (Or.inl h))⟩
    · exact ⟨_, _, _, _, h1, h2, eqs.mpr (hl.trans ((s1 _ _ _ _).trans (s2 _ _ _ _))), Or.inr (Or.inr (Or.inr h))⟩

theorem mem_linePairs {a b : Fin 9} : (a, b) ∈ linePairs ↔ a < b := by
  revert a b; decide +kernel

theorem mapM_spec {f : α → Res β} {P : α → β → Prop} : ∀ l : List α, (∀ a ∈ l, ∃ b, f a = .ok b ∧ P a b) →
    ∃ bs, l.mapM f = .ok bs ∧ List.Forall₂ P l bs
  | [], _ => ⟨[], rfl, .nil⟩
  | a :: l, h => by
    obtain ⟨b, e, hb⟩ := h a (by simp)
    obtain ⟨bs, e', hbs⟩ := mapM_spec l (fun x hx => h x (by simp [hx]))
    refine ⟨b :: bs, ?_, .cons hb hbs⟩
    rw [List.mapM_cons, e, Res.ok_bind, e', Res.ok_bind]
    rfl

theorem find_spec {filled clues : Grid} (hw : WellFormed filled) {cp : Vector DigitSet 81}
    (hf : ∀ c : Fin 81, Fits 9 cp[c]) :
    ∃ l, findAvoidableRectangles filled clues cp = .ok l ∧ ∀ ls e, (ls, e) ∈ l ↔
      ∃ r r' c c' : Fin 9, Avoidable filled clues (Cand cp) r r' c c' e ∧
        elems ls = {r.val, r'.val, 9 + c.val, 9 + c'.val} := by
  obtain ⟨bs, e, h⟩ := mapM_spec
    (f := fun x : (Fin 9 × Fin 9) × (Fin 9 × Fin 9) => rectangleAt filled clues cp x.1.1 x.1.2 x.2.1 x.2.2)
    (P := fun x o => ∀ ls e, o = some (ls, e) ↔ ls = linesOf x.1.1 x.1.2 x.2.1 x.2.2 ∧
      Any filled clues cp x.1.1 x.1.2 x.2.1 x.2.2 e)
    (linePairs.flatMap (fun rows => linePairs.map (fun cols => (rows, cols)))) (by
      rintro ⟨⟨r, r'⟩, c, c'⟩ hx
      rw [List.mem_flatMap] at hx
      obtain ⟨rows, hrows, hx⟩ := hx
      rw [List.mem_map] at hx
      obtain ⟨cols, hcols, hx⟩ := hx
      cases hx
      exact rectangleAt_spec hw hf (ne_of_lt (mem_linePairs.mp hrows)) (ne_of_lt (mem_linePairs.mp hcols)))
  refine ⟨bs.filterMap id, ?_, fun ls e => ?_⟩
  · unfold findAvoidableRectangles
    exact (congrArg (· >>= fun found => Res.ok (found.filterMap id)) e).trans rfl
  · rw [← any_iff, List.mem_filterMap]
    constructor
    · rintro ⟨o, ho, hi⟩
      obtain ⟨x, hx, hP⟩ : ∃ x, x ∈ linePairs.flatMap (fun rows => linePairs.map (fun cols => (rows, cols))) ∧
          ∀ ls e, o = some (ls, e) ↔ ls = linesOf x.1.1 x.1.2 x.2.1 x.2.2 ∧
            Any filled clues cp x.1.1 x.1.2 x.2.1 x.2.2 e := by
        obtain ⟨i, hi', rfl⟩ := List.mem_iff_getElem.mp ho
        have hl := h.length_eq
        exact ⟨_, List.getElem_mem (by omega), List.forall₂_iff_get.mp h |>.2 i (by omega) hi'⟩
      obtain ⟨⟨r, r'⟩, c, c'⟩ := x
      rw [List.mem_flatMap] at hx
      obtain ⟨rows, hrows, hx⟩ := hx
      rw [List.mem_map] at hx
      obtain ⟨cols, hcols, hx⟩ := hx
      cases hx
      obtain ⟨h1, h2⟩ := (hP ls e).mp hi
      exact ⟨_, _, _, _, mem_linePairs.mp hrows, mem_linePairs.mp hcols, h1, h2⟩
    · rintro ⟨r, r', c, c', hr, hc, hl, hA⟩
      have hx : ((r, r'), (c, c')) ∈ linePairs.flatMap (fun rows => linePairs.map (fun cols => (rows, cols))) :=
        List.mem_flatMap.mpr ⟨(r, r'), mem_linePairs.mpr hr, List.mem_map.mpr ⟨(c, c'), mem_linePairs.mpr hc, rfl⟩⟩
      obtain ⟨i, hi, hxi⟩ := List.mem_iff_getElem.mp hx
      have hlen := h.length_eq
      have hP := List.forall₂_iff_get.mp h |>.2 i hi (by omega)
      refine ⟨bs[i], List.getElem_mem _, ?_⟩
      have hxi' : (linePairs.flatMap (fun rows => linePairs.map (fun cols => (rows, cols)))).get ⟨i, hi⟩ =
        ((r, r'), (c, c')) := hxi
      rw [hxi'] at hP
      exact (hP ls e).mpr ⟨hl, hA⟩

/-! ## Soundness -/

theorem cellAt_row (r c : Fin 9) : rowOf (cellAt r c).val = r.val := by
  show (9 * r.val + c.val) / 9 = r.val
  omega
theorem cellAt_col (r c : Fin 9) : colOf (cellAt r c).val = c.val := by
  show (9 * r.val + c.val) % 9 = c.val
  omega
theorem cellAt_inj {r c r' c' : Fin 9} : cellAt r c = cellAt r' c' ↔ r = r' ∧ c = c' := by
  simp only [cellAt, Fin.ext_iff]
  omega

/-- A cell in a house with a corner of a rectangle in two blocks is in a house with a corner next to it. -/
theorem beside {r r' c c' : Fin 9} (hb : ¬ (r.val / 3 = r'.val / 3 ↔ c.val / 3 = c'.val / 3)) {j : Nat}
    (h : SameHouse (cellAt r c).val j) : SameHouse (cellAt r c').val j ∨ SameHouse (cellAt r' c).val j := by
  unfold SameHouse blockOf at *
  simp only [cellAt_row, cellAt_col] at *
  omega

theorem sameRow (r c c' : Fin 9) : SameHouse (cellAt r c).val (cellAt r c').val :=
  Or.inl (by rw [cellAt_row, cellAt_row])
theorem sameCol (r r' c : Fin 9) : SameHouse (cellAt r c).val (cellAt r' c).val :=
  Or.inr (Or.inl (by rw [cellAt_col, cellAt_col]))

theorem houseSymm {i j : Nat} (h : SameHouse i j) : SameHouse j i := by
  unfold SameHouse at *
  omega

/-- In a solution, two digits in the corners of a rectangle in two blocks can be exchanged. -/
theorem exchange {t : Grid} (ht : Solved t) {r r' c c' : Fin 9} (hc : c ≠ c')
    (hb : ¬ (r.val / 3 = r'.val / 3 ↔ c.val / 3 = c'.val / 3))
    (h1 : t[cellAt r c] = t[cellAt r' c']) (h2 : t[cellAt r c'] = t[cellAt r' c]) :
    ∃ t', Solved t' ∧ t' ≠ t ∧ ∀ i : Fin 81, i ≠ cellAt r c → i ≠ cellAt r c' → i ≠ cellAt r' c → i ≠ cellAt r' c' →
      t'[i] = t[i] := by
  have hxy : t[cellAt r c] ≠ t[cellAt r c'] :=
    ht.2 _ _ (fun h => hc (cellAt_inj.mp h).2) (sameRow _ _ _)
  let S : Fin 81 → Prop := fun i => i = cellAt r c ∨ i = cellAt r c' ∨ i = cellAt r' c ∨ i = cellAt r' c'
  let sw : UInt8 → UInt8 := fun v => if v = t[cellAt r c] then t[cellAt r c'] else t[cellAt r c]
  have hS : ∀ i, S i → t[i] = t[cellAt r c] ∨ t[i] = t[cellAt r c'] := by
    rintro i (rfl | rfl | rfl | rfl)
    · exact Or.inl rfl
    · exact Or.inr rfl
    · exact Or.inr h2.symm
    · exact Or.inl h1.symm
  have sx : sw t[cellAt r c] = t[cellAt r c'] := if_pos rfl
  have sy : sw t[cellAt r c'] = t[cellAt r c] := if_neg hxy.symm
  have hnext : ∀ i, S i → ∀ j : Fin 81, SameHouse i.val j.val → ∃ k, S k ∧ SameHouse k.val j.val ∧ t[k] = sw t[i] := by
    rintro i (rfl | rfl | rfl | rfl) j hij
    · rcases beside hb hij with h | h
      · exact ⟨_, Or.inr (Or.inl rfl), h, sx.symm⟩
      · exact ⟨_, Or.inr (Or.inr (Or.inl rfl)), h, by rw [sx, h2]⟩
    · rcases beside (r' := r') (c' := c) (by omega) hij with h | h
      · exact ⟨_, Or.inl rfl, h, sy.symm⟩
      · exact ⟨_, Or.inr (Or.inr (Or.inr rfl)), h, by rw [sy, h1]⟩
    · rcases beside (r' := r) (c' := c') (by omega) hij with h | h
      · exact ⟨_, Or.inr (Or.inr (Or.inr rfl)), h, by rw [← h2, sy, h1]⟩
      · exact ⟨_, Or.inl rfl, h, by rw [← h2, sy]⟩
    · rcases beside (r' := r) (c' := c) (by omega) hij with h | h
      · exact ⟨_, Or.inr (Or.inr (Or.inl rfl)), h, by rw [← h1, sx, h2]⟩
      · exact ⟨_, Or.inr (Or.inl rfl), h, by rw [← h1, sx]⟩
  have key : ∀ i j : Fin 81, i ≠ j → SameHouse i.val j.val → S i → ¬ S j → sw t[i] ≠ t[j] := by
    intro i j hij hh hi hj he
    obtain ⟨k, hk, hkj, hv⟩ := hnext i hi j hh
    exact ht.2 k j (fun h => hj (h ▸ hk)) hkj (hv.trans he)
  refine ⟨Vector.ofFn (fun i => if S i then sw t[i] else t[i]), ⟨?_, ?_⟩, ?_, ?_⟩
  · intro i
    simp only [Fin.getElem_fin, Vector.getElem_ofFn]
    split
    · rename_i hi
      rcases hS i hi with h | h
      · have h' : t[i.val] = t[cellAt r c] := h
        show 1 ≤ sw t[i.val] ∧ sw t[i.val] ≤ 9
        rw [h', sx]
        exact ht.1 _
      · have h' : t[i.val] = t[cellAt r c'] := h
        show 1 ≤ sw t[i.val] ∧ sw t[i.val] ≤ 9
        rw [h', sy]
        exact ht.1 _
    · exact ht.1 i
  · intro i j hij hh
    simp only [Fin.getElem_fin, Vector.getElem_ofFn]
    by_cases hi : S i <;> by_cases hj : S j <;> simp only [hi, hj, if_true, if_false]
    · have hne : t[i] ≠ t[j] := ht.2 i j hij hh
      show sw t[i] ≠ sw t[j]
      rcases hS i hi with h | h <;> rcases hS j hj with h' | h'
      · exact absurd (h.trans h'.symm) hne
      · rw [h, h', sx, sy]; exact hxy.symm
      · rw [h, h', sx, sy]; exact hxy
      · exact absurd (h.trans h'.symm) hne
    · exact key i j hij hh hi hj
    · exact (key j i hij.symm (houseSymm hh) hj hi).symm
    · exact ht.2 i j hij hh
  · intro h
    have hA : (Vector.ofFn (fun i => if S i then sw t[i] else t[i]) : Grid)[cellAt r c] = t[cellAt r c] := by rw [h]
    simp only [Fin.getElem_fin, Vector.getElem_ofFn] at hA
    rw [if_pos (Or.inl rfl)] at hA
    exact hxy (hA.symm.trans sx)
  · intro i n1 n2 n3 n4
    simp only [Fin.getElem_fin, Vector.getElem_ofFn]
    rw [if_neg]
    rintro (h | h | h | h) <;> contradiction

theorem corners {filled clues t : Grid} {cand : Fin 81 → Digit → Prop} (ht : Solved t) (hft : Extends filled t)
    {r r' c c' : Fin 9} {e : Candidate} (h : Avoidable filled clues cand r r' c c' e) :
    filled[cellAt r c'] = filled[cellAt r' c] ∧ filled[cellAt r c'] ≠ filled[cellAt r' c'] := by
  have e1 := hft _ h.filled1.1
  have e2 := hft _ h.filled2.1
  have e3 := hft _ h.filled3.1
  have n1 : t[cellAt r c'] ≠ t[cellAt r' c'] := ht.2 _ _ (fun e => h.rows (cellAt_inj.mp e).1) (sameCol _ _ _)
  have n2 : t[cellAt r' c] ≠ t[cellAt r' c'] := ht.2 _ _ (fun e => h.cols (cellAt_inj.mp e).2) (sameRow _ _ _)
  rw [e1, e3] at n1
  rw [e2, e3] at n2
  refine ⟨?_, n1⟩
  by_contra hne
  have := h.two
  rw [Finset.card_eq_three.mpr ⟨_, _, _, hne, n1, n2, rfl⟩] at this
  omega

theorem avoidable_sound {filled clues t : Grid} {cand : Fin 81 → Digit → Prop} (ht : Solved t) (hcf : Extends clues filled)
    (hft : Extends filled t) (hu : ∀ t', IsSolution clues t' → t' = t) {r r' c c' : Fin 9} {e : Candidate}
    (h : Avoidable filled clues cand r r' c c' e) : t[e.cell] ≠ e.digit.get := by
  intro he
  obtain ⟨hBC, hBD⟩ := corners ht hft h
  have e1 := hft _ h.filled1.1
  have e2 := hft _ h.filled2.1
  have e3 := hft _ h.filled3.1
  have hA : t[e.cell] = t[cellAt r c] := by simp only [h.cell]
  have hAD : t[cellAt r c] = t[cellAt r' c'] := by
    have nB : t[cellAt r c] ≠ t[cellAt r c'] := ht.2 _ _ (fun e => h.cols (cellAt_inj.mp e).2) (sameRow _ _ _)
    have hd := h.digit
    rw [← he, hA, ← e1, ← e2, ← e3] at hd
    rcases hd with hd | hd | hd
    · exact absurd hd nB
    · exact absurd (hd.trans (e2.trans (hBC.symm.trans e1.symm))) nB
    · exact hd
  obtain ⟨t', ht', hne, hsame⟩ := exchange ht h.cols h.blocks hAD (e1.trans (hBC.trans e2.symm))
  apply hne
  apply hu t' ⟨ht', fun i hi => ?_⟩
  have hfi := hcf i hi
  rw [hsame i, hft i (by rw [hfi]; exact hi), hfi]
  · rintro rfl; exact hi (hfi.symm.trans h.free)
  · rintro rfl; exact hi h.filled1.2
  · rintro rfl; exact hi h.filled2.2
  · rintro rfl; exact hi h.filled3.2

end Verif.Rectangles
