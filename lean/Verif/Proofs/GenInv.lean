import Verif.Model.Generator
import Verif.Proofs.Items
import Verif.Proofs.IsSolved
import Verif.Proofs.Clues
import Mathlib.Algebra.BigOperators.Fin

/-!
# Invariants of the randomized generator
-/
namespace Verif

theorem Digit.get_toNat (d : Digit) : (Digit.get d).toNat = d.val + 1 := by
  revert d; decide
theorem Digit.get_ne_zero (d : Digit) : Digit.get d ≠ 0 := by
  revert d; decide
theorem Digit.get_range (d : Digit) : 1 ≤ Digit.get d ∧ Digit.get d ≤ 9 := by
  revert d; decide
theorem Digit.get_inj {d e : Digit} (h : Digit.get d = Digit.get e) : d = e := by
  revert d e; decide
theorem Digit.exists_get {v : UInt8} (h : 1 ≤ v ∧ v ≤ 9) : ∃ d : Digit, v = Digit.get d := by
  have h1 := UInt8.le_iff_toNat_le.mp h.1
  have h2 := UInt8.le_iff_toNat_le.mp h.2
  have e1 : (1 : UInt8).toNat = 1 := rfl
  have e9 : (9 : UInt8).toNat = 9 := rfl
  refine ⟨⟨v.toNat - 1, by omega⟩, ?_⟩
  rw [← UInt8.toNat_inj, Digit.get_toNat]
  show v.toNat = v.toNat - 1 + 1
  omega

theorem get_set_fin {α : Type} {n : Nat} (v : Vector α n) (i j : Fin n) (x : α) :
    (v.set i.val x i.isLt)[j] = if i = j then x else v[j] := by
  show (v.set i.val x i.isLt)[j.val] = _
  rw [Vector.getElem_set]
  by_cases h : i = j
  · subst h; simp
  · rw [if_neg (fun e => h (Fin.ext e)), if_neg h]; rfl

namespace Generator

open Sudoku Bitset

/-- What holds of a generator state between the steps. -/
structure Inv (s : Gen) : Prop where
  fits : ∀ c : Fin 81, Fits 9 s.poss[c]
  empty : ∀ c : Fin 81, s.grid[c] ≠ 0 → s.poss[c] = 0#16
  opn : ∀ c : Fin 81, s.grid[c] = 0 → s.poss[c] ≠ 0#16
  count : s.nSolved = clueCount s.grid
  house : ∀ (h : Fin 27) (d : Digit), s.house[h].getLsbD d.val = true ↔ ∃ c, InHouse h c ∧ s.grid[c] = d.get
  fitsH : ∀ h : Fin 27, Fits 9 s.house[h]
  range : ∀ c : Fin 81, s.grid[c] ≠ 0 → ∃ d : Digit, s.grid[c] = d.get
  distinct : ∀ c c' : Fin 81, c ≠ c' → SameHouse c c' → s.grid[c] ≠ 0 → s.grid[c] ≠ s.grid[c']
  last : s.last < 81

/-- No possible digit of a cell is already entered in one of its houses. -/
def Fresh (s : Gen) : Prop :=
  ∀ (c c' : Fin 81) (d : Digit), c ≠ c' → SameHouse c c' → s.grid[c] = d.get → s.poss[c'].getLsbD d.val = false

/-- The completed grid `t` is compatible with the state. -/
def Sat (s : Gen) (t : Grid) : Prop :=
  Solved t ∧ ∀ c : Fin 81, (s.grid[c] ≠ 0 → t[c] = s.grid[c]) ∧
    (s.grid[c] = 0 → ∃ d : Digit, t[c] = d.get ∧ s.poss[c].getLsbD d.val = true)

/-- The completed grid `t` contains the entries. -/
def StackSat (stack : List Candidate) (t : Grid) : Prop := ∀ e ∈ stack, t[e.cell] = e.digit.get

/-- The entries are for empty cells. -/
def AllOpen (s : Gen) (stack : List Candidate) : Prop := ∀ e ∈ stack, s.grid[e.cell] = 0

/-- The number of possible digits of all cells together. -/
def size (s : Gen) : Nat := ∑ c : Fin 81, (elems s.poss[c]).card

theorem size_le {s s' : Gen} (h : ∀ (c : Fin 81) (i : Nat), s'.poss[c].getLsbD i = true → s.poss[c].getLsbD i = true) :
    size s' ≤ size s := by
  apply Finset.sum_le_sum
  intro c _
  apply Finset.card_le_card
  intro i hi
  exact mem_elems.mpr (h c i (mem_elems.mp hi))

theorem size_lt {s s' : Gen} (h : ∀ (c : Fin 81) (i : Nat), s'.poss[c].getLsbD i = true → s.poss[c].getLsbD i = true)
    (c : Fin 81) (i : Nat) (h1 : s.poss[c].getLsbD i = true) (h2 : s'.poss[c].getLsbD i = false) :
    size s' < size s := by
  apply Finset.sum_lt_sum
  · intro c _
    apply Finset.card_le_card
    intro i hi
    exact mem_elems.mpr (h c i (mem_elems.mp hi))
  · refine ⟨c, Finset.mem_univ _, ?_⟩
    apply Finset.card_lt_card
    constructor
    · intro i hi
      exact mem_elems.mpr (h c i (mem_elems.mp hi))
    · intro hsub
      have := mem_elems.mp (hsub (mem_elems.mpr h1))
      rw [h2] at this
      cases this

theorem card_le_nine {a : BitVec 16} (h : Fits 9 a) : (elems a).card ≤ 9 := by
  have := Finset.card_le_card (fits_iff.mp h)
  rwa [Finset.card_range] at this

theorem size_bound {s : Gen} (h : Inv s) : size s ≤ 729 := by
  have := Finset.sum_le_card_nsmul (Finset.univ : Finset (Fin 81)) (fun c => (elems s.poss[c]).card) 9
    (fun c _ => card_le_nine (h.fits c))
  simpa [size] using this

theorem clueCount_set {g : Grid} {c : Fin 81} {v : UInt8} (h0 : g[c] = 0) (hv : v ≠ 0) :
    clueCount (g.set c.val v c.isLt) = clueCount g + 1 := by
  unfold clueCount
  have hsplit : ∀ (l : List (Fin 81)), l.Nodup →
      l.countP (fun x => decide ((g.set c.val v c.isLt)[x] ≠ 0)) =
        l.countP (fun x => decide (g[x] ≠ 0)) + (if c ∈ l then 1 else 0) := by
    intro l
    induction l with
    | nil => intro _; rfl
    | cons x xs ih =>
      intro hn
      rw [List.nodup_cons] at hn
      rw [List.countP_cons, List.countP_cons, ih hn.2, get_set_fin]
      by_cases e : c = x
      · subst e
        simp [h0, hv, hn.1]
      · by_cases hm : c ∈ xs <;> simp [e, hm] <;> omega
  rw [hsplit _ (List.nodup_finRange 81), if_pos (List.mem_finRange c)]

theorem clueCount_full {g : Grid} (h : clueCount g = 81) (c : Fin 81) : g[c] ≠ 0 := by
  unfold clueCount at h
  have hl : (List.finRange 81).countP (fun c => decide (g[c] ≠ 0)) = (List.finRange 81).length := by
    rw [h]; simp
  have := List.countP_eq_length.mp hl c (List.mem_finRange c)
  exact of_decide_eq_true this

theorem orHouse_get (v : Vector DigitSet 27) (h n : Fin 27) (m : DigitSet) (k : Nat) :
    (orHouse v h m)[n].getLsbD k = true ↔ v[n].getLsbD k = true ∨ (n = h ∧ m.getLsbD k = true) :=
  set_or_get v h n m k

theorem digitSet_get (e : Candidate) (k : Nat) : e.digitSet.getLsbD k = true ↔ k = e.digit.val := by
  unfold Candidate.digitSet
  rw [bit_asSet (by omega)]
  exact eq_comm

/-- Entering a digit. -/
theorem insertEntry_spec {s : Gen} (hi : Inv s) {e : Candidate} (h0 : s.grid[e.cell] = 0)
    (hd : ∀ c' : Fin 81, e.cell ≠ c' → SameHouse e.cell c' → s.grid[c'] ≠ e.digit.get) :
    ∃ s', s.insertEntry e = .ok s' ∧ Inv s' ∧ s'.grid = s.grid.set e.cell e.digit.get ∧
      s'.poss = s.poss.set e.cell (NONE 16) ∧ s'.last = s.last := by
  have hc : s.nSolved < 255 := by
    rw [hi.count]
    have := clueCount_le s.grid
    omega
  unfold Gen.insertEntry
  rw [decide_eq_true hc, Res.assert_true, Res.ok_bind]
  refine ⟨_, rfl, ?_, rfl, rfl, rfl⟩
  constructor
  · intro c
    show Fits 9 (s.poss.set e.cell.val (NONE 16) e.cell.isLt)[c]
    rw [get_set_fin]
    split
    · exact fits_none
    · exact hi.fits c
  · intro c hc
    have hc : (s.grid.set e.cell.val e.digit.get e.cell.isLt)[c] ≠ 0 := hc
    show (s.poss.set e.cell.val (NONE 16) e.cell.isLt)[c] = 0#16
    rw [get_set_fin] at hc ⊢
    split
    · rfl
    · rename_i h
      rw [if_neg h] at hc
      exact hi.empty c hc
  · intro c hc
    have hc : (s.grid.set e.cell.val e.digit.get e.cell.isLt)[c] = 0 := hc
    show (s.poss.set e.cell.val (NONE 16) e.cell.isLt)[c] ≠ 0#16
    rw [get_set_fin] at hc ⊢
    split
    · rename_i h
      rw [if_pos h] at hc
      exact absurd hc (Digit.get_ne_zero _)
    · rename_i h
      rw [if_neg h] at hc
      exact hi.opn c hc
  · show s.nSolved + 1 = _
    rw [hi.count]
    exact (clueCount_set h0 (Digit.get_ne_zero _)).symm
  · intro h d
    show (orHouse (orHouse (orHouse s.house e.row e.digitSet) e.col e.digitSet) e.block e.digitSet)[h].getLsbD d.val = true
      ↔ ∃ c, InHouse h c ∧ (s.grid.set e.cell.val e.digit.get e.cell.isLt)[c] = d.get
    rw [orHouse_get, orHouse_get, orHouse_get, hi.house, digitSet_get]
    have hin : InHouse h e.cell ↔ h = e.row ∨ h = e.col ∨ h = e.block := Iff.rfl
    constructor
    · intro hx
      have : (∃ c, InHouse h c ∧ s.grid[c] = d.get) ∨ (InHouse h e.cell ∧ d = e.digit) := by
        rw [hin]
        rcases hx with ((h1 | h1) | h1) | h1
        · exact Or.inl h1
        · exact Or.inr ⟨Or.inl h1.1, Fin.ext h1.2⟩
        · exact Or.inr ⟨Or.inr (Or.inl h1.1), Fin.ext h1.2⟩
        · exact Or.inr ⟨Or.inr (Or.inr h1.1), Fin.ext h1.2⟩
      rcases this with ⟨c, h1, h2⟩ | ⟨h1, rfl⟩
      · refine ⟨c, h1, ?_⟩
        rw [get_set_fin, if_neg]
        · exact h2
        · rintro rfl
          rw [h0] at h2
          exact Digit.get_ne_zero _ h2.symm
      · exact ⟨e.cell, h1, by rw [get_set_fin, if_pos rfl]⟩
    · rintro ⟨c, h1, h2⟩
      rw [get_set_fin] at h2
      by_cases ec : e.cell = c
      · rw [if_pos ec] at h2
        have := Digit.get_inj h2
        subst ec
        rw [hin] at h1
        rcases h1 with h1 | h1 | h1
        · exact Or.inl (Or.inl (Or.inr ⟨h1, by rw [this]⟩))
        · exact Or.inl (Or.inr ⟨h1, by rw [this]⟩)
        · exact Or.inr ⟨h1, by rw [this]⟩
      · rw [if_neg ec] at h2
        exact Or.inl (Or.inl (Or.inl ⟨c, h1, h2⟩))
  · intro h k hk
    have hk : (orHouse (orHouse (orHouse s.house e.row e.digitSet) e.col e.digitSet) e.block e.digitSet)[h].getLsbD k
      = true := hk
    rw [orHouse_get, orHouse_get, orHouse_get, digitSet_get] at hk
    have := e.digit.isLt
    rcases hk with ((h1 | h1) | h1) | h1
    · exact hi.fitsH h k h1
    · omega
    · omega
    · omega
  · intro c hc
    have hc : (s.grid.set e.cell.val e.digit.get e.cell.isLt)[c] ≠ 0 := hc
    show ∃ d : Digit, (s.grid.set e.cell.val e.digit.get e.cell.isLt)[c] = d.get
    rw [get_set_fin] at hc ⊢
    split
    · exact ⟨_, rfl⟩
    · rename_i h
      rw [if_neg h] at hc
      exact hi.range c hc
  · intro c c' hne hs hc
    have hc : (s.grid.set e.cell.val e.digit.get e.cell.isLt)[c] ≠ 0 := hc
    show (s.grid.set e.cell.val e.digit.get e.cell.isLt)[c] ≠ (s.grid.set e.cell.val e.digit.get e.cell.isLt)[c']
    rw [get_set_fin] at hc
    rw [get_set_fin, get_set_fin]
    by_cases h1 : e.cell = c
    · subst h1
      rw [if_pos rfl, if_neg hne]
      exact (hd c' hne hs).symm
    · rw [if_neg h1] at hc ⊢
      by_cases h2 : e.cell = c'
      · subst h2
        rw [if_pos rfl]
        refine hd c h1 ?_
        rcases hs with h | h | h
        · exact Or.inl h.symm
        · exact Or.inr (Or.inl h.symm)
        · exact Or.inr (Or.inr h.symm)
      · rw [if_neg h2]
        exact hi.distinct c c' hne hs hc
  · exact hi.last

/-- Consequences of entering a digit. -/
theorem insertEntry_sat {s s' : Gen} {e : Candidate} (hg : s'.grid = s.grid.set e.cell e.digit.get)
    (hp : s'.poss = s.poss.set e.cell (NONE 16)) {t : Grid} (ht : Sat s t) (he : t[e.cell] = e.digit.get) : Sat s' t := by
  refine ⟨ht.1, fun c => ?_⟩
  rw [hg, hp, get_set_fin, get_set_fin]
  by_cases h : e.cell = c
  · subst h
    rw [if_pos rfl, if_pos rfl]
    exact ⟨fun _ => he, fun h0 => absurd h0 (Digit.get_ne_zero _)⟩
  · rw [if_neg h, if_neg h]
    exact ht.2 c

theorem insertEntry_extends {s s' : Gen} {e : Candidate} (hg : s'.grid = s.grid.set e.cell e.digit.get)
    (h0 : s.grid[e.cell] = 0) : Extends s.grid s'.grid := by
  intro c hc
  rw [hg, get_set_fin, if_neg]
  rintro rfl
  exact hc h0

theorem insertEntry_size {s s' : Gen} {e : Candidate} (hi : Inv s) (hp : s'.poss = s.poss.set e.cell (NONE 16))
    (h0 : s.grid[e.cell] = 0) : size s' < size s := by
  obtain ⟨i, hb⟩ := ne_zero_iff.mp (hi.opn _ h0)
  refine size_lt (c := e.cell) (i := i) ?_ hb ?_
  · intro c j hj
    rw [hp, get_set_fin] at hj
    split at hj
    · rw [bit_none] at hj; cases hj
    · exact hj
  · rw [hp, get_set_fin, if_pos rfl, bit_none]

/-- The state with the possible digits of one cell replaced. -/
def withPoss (s : Gen) (c : Fin 81) (m : DigitSet) : Gen := { s with poss := s.poss.set c m }

theorem withPoss_get (s : Gen) (c : Fin 81) (m : DigitSet) (x : Fin 81) :
    (withPoss s c m).poss[x] = if c = x then m else s.poss[x] := get_set_fin _ _ _ _

theorem withPoss_inv {s : Gen} (hi : Inv s) {c : Fin 81} (h0 : s.grid[c] = 0) {m : DigitSet} (hm : m ≠ 0#16)
    (hf : Fits 9 m) : Inv (withPoss s c m) := by
  refine ⟨?_, ?_, ?_, hi.count, hi.house, hi.fitsH, hi.range, hi.distinct, hi.last⟩
  · intro x
    rw [withPoss_get]
    split
    · exact hf
    · exact hi.fits x
  · intro x hx
    rw [withPoss_get, if_neg]
    · exact hi.empty x hx
    · rintro rfl; exact hx h0
  · intro x hx
    rw [withPoss_get]
    split
    · exact hm
    · exact hi.opn x hx

/-- `remove_impossibilities` on an empty cell. -/
theorem remove_spec {s : Gen} (hi : Inv s) {c : Fin 81} (h0 : s.grid[c] = 0) (mask : DigitSet) (stack : List Candidate) :
    Res.Post (s.removeImpossibilities c mask stack)
      (fun r => r.1 = withPoss s c (without s.poss[c] mask) ∧ Inv r.1 ∧
        (r.2 = stack ∨ ∃ d : Digit, r.2 = ⟨c, d⟩ :: stack ∧
          ∀ j, (without s.poss[c] mask).getLsbD j = true ↔ j = d.val))
      (without s.poss[c] mask = 0#16) := by
  unfold Gen.removeImpossibilities
  have hf : Fits 9 (without s.poss[c] mask) := (hi.fits c).without
  rcases uniqueItem_spec (by omega) (by omega) (by omega) hf with ⟨h, e⟩ | ⟨d, h, e⟩ | ⟨h, e⟩
  · simp only [e, Res.ok_bind]
    exact h
  · simp only [e, Res.ok_bind]
    refine ⟨rfl, withPoss_inv hi h0 ?_ hf, Or.inr ⟨d, rfl, h⟩⟩
    exact ne_zero_iff.mpr ⟨d.val, (h _).mpr rfl⟩
  · simp only [e, Res.ok_bind]
    refine ⟨rfl, withPoss_inv hi h0 ?_ hf, Or.inl rfl⟩
    intro hz
    rw [elems_eq_empty.mpr hz] at h
    simp at h

theorem withPoss_sat {s : Gen} {c : Fin 81} {mask : DigitSet} {t : Grid} (ht : Sat s t)
    (hn : ∀ d : Digit, t[c] = d.get → mask.getLsbD d.val = false) : Sat (withPoss s c (without s.poss[c] mask)) t := by
  refine ⟨ht.1, fun x => ⟨(ht.2 x).1, fun hx => ?_⟩⟩
  obtain ⟨d, h1, h2⟩ := (ht.2 x).2 hx
  refine ⟨d, h1, ?_⟩
  rw [withPoss_get]
  by_cases e : c = x
  · subst e
    rw [if_pos rfl, bit_without, h2, hn d h1]
    rfl
  · rw [if_neg e]; exact h2

theorem withPoss_sub (s : Gen) (c : Fin 81) (mask : DigitSet) (x : Fin 81) (i : Nat)
    (h : (withPoss s c (without s.poss[c] mask)).poss[x].getLsbD i = true) : s.poss[x].getLsbD i = true := by
  rw [withPoss_get] at h
  by_cases e : c = x
  · subst e
    rw [if_pos rfl, bit_without, Bool.and_eq_true] at h
    exact h.1
  · rwa [if_neg e] at h

theorem fresh_of_sub {s s' : Gen} (hf : Fresh s) (hg : s'.grid = s.grid)
    (h : ∀ (x : Fin 81) (i : Nat), s'.poss[x].getLsbD i = true → s.poss[x].getLsbD i = true) : Fresh s' := by
  intro c c' d hne hs hd
  rw [hg] at hd
  have := hf c c' d hne hs hd
  by_contra hc
  rw [Bool.not_eq_false] at hc
  rw [h _ _ hc] at this
  cases this

end Generator
end Verif
