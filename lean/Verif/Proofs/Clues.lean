import Verif.Proofs.Api
import Verif.Proofs.SolvedGrid
import Mathlib.Logic.Equiv.Basic

/-! `n_clues`, and why fewer than eight digits cannot give a unique solution. -/
namespace Verif

theorem toList_eq_map (g : Grid) : g.toList = (List.finRange 81).map (fun c => g[c]) := by
  apply List.ext_getElem
  · simp
  · intro i h1 h2; simp

theorem clueCount_eq (g : Grid) : (g.toList.filter (fun n => n != 0)).length = clueCount g := by
  rw [toList_eq_map, List.filter_map, List.length_map, ← List.countP_eq_length_filter]
  unfold clueCount
  apply List.countP_congr
  intro c _
  simp

theorem clueCount_le (g : Grid) : clueCount g ≤ 81 := by
  unfold clueCount
  exact le_trans List.countP_le_length (by simp)

/-- Exchanging two digits everywhere. -/
def swapDigits (a b : UInt8) (t : Grid) : Grid := t.map (Equiv.swap a b)

theorem swapDigits_get (a b : UInt8) (t : Grid) (c : Fin 81) : (swapDigits a b t)[c] = Equiv.swap a b t[c] := by
  simp [swapDigits]

theorem swapDigits_solved {a b : UInt8} (ha : 1 ≤ a ∧ a ≤ 9) (hb : 1 ≤ b ∧ b ≤ 9) {t : Grid} (h : Solved t) :
    Solved (swapDigits a b t) := by
  constructor
  · intro c
    rw [swapDigits_get, Equiv.swap_apply_def]
    split
    · exact hb
    · split
      · exact ha
      · exact h.1 c
  · intro c c' hne hs
    rw [swapDigits_get, swapDigits_get]
    exact fun e => h.2 c c' hne hs ((Equiv.swap a b).injective e)

/-- If two digits are missing from the clues, a solution is never unique. -/
theorem not_unique_of_missing {g : Grid} {a b : UInt8} (hab : a ≠ b) (ha : 1 ≤ a ∧ a ≤ 9)
    (hb : 1 ≤ b ∧ b ≤ 9) (hga : ∀ c : Fin 81, g[c] ≠ a) (hgb : ∀ c : Fin 81, g[c] ≠ b) :
    ¬ UniquelySolvable g := by
  rintro ⟨t, ht, hu⟩
  have h2 : IsSolution g (swapDigits a b t) := by
    refine ⟨swapDigits_solved ha hb ht.1, fun c hc => ?_⟩
    rw [swapDigits_get, ht.2 c hc]
    exact Equiv.swap_apply_of_ne_of_ne (hga c) (hgb c)
  have he := hu _ h2
  -- digit `a` occurs in the first row of `t`
  have haN : 1 ≤ a.toNat ∧ a.toNat ≤ 9 := ⟨ha.1, ha.2⟩
  obtain ⟨c, _, hc⟩ := ht.1.exists_row 0 ⟨a.toNat - 1, by omega⟩
  have hc' : t[c] = a := UInt8.toNat_inj.1 (by rw [hc]; simp only; omega)
  have := swapDigits_get a b t c
  rw [hc', Equiv.swap_apply_left] at this
  have h3 : (swapDigits a b t)[c] = t[c] := by rw [he]
  rw [this, hc'] at h3
  exact hab h3.symm

namespace Sudoku

theorem scan_fold (l : List UInt8) (hl : ∀ x ∈ l, x.toNat < 16) (m : BitVec 16) (n : Nat) :
    let r := l.foldl (fun (acc : BitVec 16 × Nat) (num : UInt8) => (acc.1 ||| (1#16 <<< num.toNat), acc.2 + 1)) (m, n)
    r.2 = n + l.length ∧ ∀ j, r.1.getLsbD j = true ↔ m.getLsbD j = true ∨ ∃ x ∈ l, x.toNat = j := by
  induction l generalizing m n with
  | nil => simp
  | cons x l ih =>
    intro r
    obtain ⟨h1, h2⟩ := ih (fun y hy => hl y (List.mem_cons_of_mem _ hy)) (m ||| (1#16 <<< x.toNat)) (n + 1)
    refine ⟨?_, fun j => ?_⟩
    · show _ = _
      simp only [r, List.foldl_cons, List.length_cons]
      rw [h1]; omega
    · simp only [r, List.foldl_cons]
      rw [h2]
      have hx := hl x List.mem_cons_self
      have : (1#16 <<< x.toNat).getLsbD j = true ↔ x.toNat = j := by
        rw [← BitVec.twoPow_eq, BitVec.getLsbD_twoPow]
        simp [hx]
      rw [BitVec.getLsbD_or, Bool.or_eq_true, this]
      simp only [List.mem_cons, exists_eq_or_imp]
      tauto

theorem filterMap_iter (g : Grid) : (iter g).filterMap id = g.toList.filter (fun n => n != 0) := by
  unfold iter
  rw [List.filterMap_map]
  induction g.toList with
  | nil => rfl
  | cons x l ih =>
    simp only [Function.id_comp] at ih
    by_cases h : x = 0
    · simp [h, numToOpt, ih]
    · simp [h, numToOpt, ih]

theorem scanClues_spec {g : Grid} (hg : WellFormed g) :
    (scanClues g).2 = clueCount g ∧
      ∀ j, (scanClues g).1.getLsbD j = true ↔ ∃ c : Fin 81, g[c] ≠ 0 ∧ g[c].toNat = j := by
  unfold scanClues
  rw [filterMap_iter]
  have hmem : ∀ x, x ∈ g.toList.filter (fun n => n != 0) ↔ ∃ c : Fin 81, g[c] = x ∧ x ≠ 0 := by
    intro x
    rw [List.mem_filter, toList_eq_map, List.mem_map]
    constructor
    · rintro ⟨⟨c, _, hc⟩, h⟩; exact ⟨c, hc, by simpa using h⟩
    · rintro ⟨c, hc, h⟩; exact ⟨⟨c, List.mem_finRange c, hc⟩, by simpa using h⟩
  obtain ⟨h1, h2⟩ := scan_fold (g.toList.filter (fun n => n != 0)) (by
    intro x hx
    obtain ⟨c, rfl, _⟩ := (hmem x).1 hx
    have : g[c].toNat ≤ 9 := hg c
    omega) 0#16 0
  refine ⟨by rw [h1, Nat.zero_add, clueCount_eq], fun j => ?_⟩
  rw [h2]
  simp only [BitVec.getLsbD_zero, Bool.false_eq_true, false_or]
  constructor
  · rintro ⟨x, hx, e⟩
    obtain ⟨c, rfl, h⟩ := (hmem x).1 hx
    exact ⟨c, h, e⟩
  · rintro ⟨c, h, e⟩
    exact ⟨g[c], (hmem _).2 ⟨c, rfl, h⟩, e⟩

theorem missing_of_few {g : Grid} (hg : WellFormed g) (h : Bitset.countOnes (scanClues g).1 < 8) :
    ¬ UniquelySolvable g := by
  obtain ⟨_, hb⟩ := scanClues_spec hg
  -- the digits 1..9 that are not clues
  let miss := ((List.range 9).map (· + 1)).filter (fun j => !(scanClues g).1.getLsbD j)
  have hpres : (((List.range 9).map (· + 1)).filter (fun j => (scanClues g).1.getLsbD j)).length < 8 := by
    refine lt_of_le_of_lt ?_ h
    unfold Bitset.countOnes
    apply List.Sublist.length_le
    apply List.Sublist.filter
    have : (List.range 9).map (· + 1) = [1,2,3,4,5,6,7,8,9] := by decide
    rw [this]
    decide
  have hlen : 2 ≤ miss.length := by
    have := List.length_eq_length_filter_add (l := (List.range 9).map (· + 1)) (fun j => (scanClues g).1.getLsbD j)
    simp only [List.length_map, List.length_range] at this
    show 2 ≤ (((List.range 9).map (· + 1)).filter (fun j => !(scanClues g).1.getLsbD j)).length
    omega
  have hnd : miss.Nodup := List.Nodup.filter _ (by decide)
  have hprop : ∀ j ∈ miss, (1 ≤ j ∧ j ≤ 9) ∧ ∀ c : Fin 81, g[c] ≠ UInt8.ofNat j := by
    intro j hj
    obtain ⟨h1, h2⟩ := List.mem_filter.1 hj
    obtain ⟨k, hk, rfl⟩ := List.mem_map.1 h1
    have hk' := List.mem_range.1 hk
    refine ⟨⟨by omega, by omega⟩, fun c e => ?_⟩
    have ht : g[c].toNat = k + 1 := by rw [e]; simp; omega
    have : (scanClues g).1.getLsbD (k + 1) = true :=
      (hb _).2 ⟨c, fun h0 => by rw [h0] at ht; simp at ht, ht⟩
    rw [this] at h2; simp at h2
  match hm : miss, hlen with
  | a :: b :: _, _ =>
    rw [hm] at hnd hprop
    have hab : a ≠ b := by
      intro e; subst e; simp at hnd
    obtain ⟨ha, ha'⟩ := hprop a (by simp)
    obtain ⟨hb', hb''⟩ := hprop b (by simp)
    have key : ∀ j : Nat, 1 ≤ j ∧ j ≤ 9 → 1 ≤ UInt8.ofNat j ∧ UInt8.ofNat j ≤ 9 := by
      intro j hj
      have : (UInt8.ofNat j).toNat = j := by simp; omega
      exact ⟨by show 1 ≤ (UInt8.ofNat j).toNat; omega, by show (UInt8.ofNat j).toNat ≤ 9; omega⟩
    refine not_unique_of_missing (a := UInt8.ofNat a) (b := UInt8.ofNat b) ?_ (key a ha) (key b hb') ha' hb''
    intro e
    have := congrArg UInt8.toNat e
    simp at this
    omega

end Sudoku
end Verif
