import Verif.Model.Numbers
import Verif.Proofs.ResMonad
import Mathlib.Data.List.Range

/-!
# Properties of the constructors of digits, positions and candidates
-/
namespace Verif.Props

open Verif Verif.Numbers

/-- How many positions of each kind a sudoku has. -/
def howMany : Kind → Nat
  | .cell => 81
  | .row | .col | .block => 9
  | .line => 9 + 9
  | .house => 9 + 9 + 9
  | .miniRow | .miniCol => 9 * 3
  | .miniLine => 9 * 3 + 9 * 3
  | .band | .stack => 3
  | .chute => 3 + 3

private theorem limit_eq (k : Kind) : k.limit.toNat = howMany k := by cases k <;> rfl

/-- **C53**: `new_checked` accepts exactly the numbers of the positions that exist, and `get` returns them. -/
theorem C53_position_checked (k : Kind) (num : UInt8) :
    posNewChecked k num = if num.toNat < howMany k then some num else none := by
  unfold posNewChecked
  simp only [UInt8.lt_iff_toNat_lt, limit_eq]

/-- **C53**: with debug assertions `new` panics exactly for the other numbers. -/
theorem C53_position_new_partial (k : Kind) (num : UInt8) :
    posNew true k num = if num.toNat < howMany k then .ok num else .panic := by
  unfold posNew
  simp only [UInt8.lt_iff_toNat_lt, limit_eq]
  split <;> rename_i h <;> simp [h, Res.assert]

/-- **C53** is false of `new` in release builds: contrary to its documentation it never panics. -/
theorem C53_release_false (k : Kind) : ∃ num, ¬ num.toNat < howMany k ∧ posNew false k num = .ok num :=
  ⟨255, by cases k <;> decide, rfl⟩

private theorem range_spec (a b : UInt8) : (range a b).map UInt8.toNat = List.range' a.toNat (b.toNat - a.toNat) := by
  unfold range
  rw [List.map_map]
  conv_rhs => rw [← List.map_id (List.range' a.toNat (b.toNat - a.toNat))]
  refine List.map_congr_left (fun n hn => ?_)
  have := b.toNat_lt
  rw [List.mem_range'_1] at hn
  show (UInt8.ofNat n).toNat = n
  rw [UInt8.toNat_ofNat']
  omega

private theorem mapM_self {f : UInt8 → Res UInt8} (l : List UInt8) (h : ∀ x ∈ l, f x = .ok x) : l.mapM f = .ok l := by
  rw [Res.mapM_ok f id l h, List.map_id]

private theorem forall_u8 {P : UInt8 → Prop} (h : ∀ n : Fin 256, P (UInt8.ofFin n)) (x : UInt8) : P x := h x.toFin

/-- **C53**: `all` lists every position once, in order. -/
theorem C53_position_all (debug : Bool) (k : Kind) :
    ∃ l, posAll debug k = .ok l ∧ l.map UInt8.toNat = List.range (howMany k) := by
  refine ⟨range 0 k.limit, mapM_self _ (fun x hx => ?_), ?_⟩
  · have hx : x.toNat ∈ (range 0 k.limit).map UInt8.toNat := List.mem_map_of_mem hx
    rw [range_spec, List.mem_range'_1] at hx
    have hlt : x < k.limit := by
      rw [UInt8.lt_iff_toNat_lt]
      have : (0 : UInt8).toNat = 0 := rfl
      omega
    unfold posNew
    simp [hlt]
  · rw [range_spec, ← limit_eq, List.range_eq_range']
    rfl

/-- **C53**: `Digit::new_checked` accepts exactly 1 to 9, and `get` returns them. -/
theorem C53_digit_checked (num : UInt8) :
    Pos.digitNewChecked num = if 1 ≤ num.toNat ∧ num.toNat ≤ 9 then some num else none := by
  revert num
  exact forall_u8 (by decide +kernel)

/-- **C53**: `Digit::new` panics exactly for the other numbers. -/
theorem C53_digit_new (num : UInt8) : digitNew num = if 1 ≤ num.toNat ∧ num.toNat ≤ 9 then .ok num else .panic := by
  unfold digitNew
  rw [C53_digit_checked]
  split <;> rfl

/-- **C53**: `as_index` counts the digits from zero, and `from_index` is its inverse. -/
theorem C53_digit_index (debug : Bool) (idx : UInt8) :
    (digitFromIndex debug idx = if idx.toNat < 9 then .ok (idx + 1) else .panic) ∧
      (idx.toNat < 9 → digitAsIndex (idx + 1) = idx.toNat) := by
  constructor
  · revert idx
    cases debug <;> exact forall_u8 (by decide +kernel)
  · revert idx
    exact forall_u8 (by decide +kernel)

/-- **C53**: `Digit::all` lists 1 to 9 in order. -/
theorem C53_digit_all : digitAll = .ok [1, 2, 3, 4, 5, 6, 7, 8, 9] := by decide +kernel

/-- **C53**: `Candidate::new` panics exactly if the cell is not below 81 or the digit not in 1 to 9, in all builds. -/
theorem C53_candidate_new (debug : Bool) (cell digit : UInt8) : candidateNew debug cell digit =
    if cell.toNat < 81 ∧ 1 ≤ digit.toNat ∧ digit.toNat ≤ 9 then .ok (cell, digit) else .panic := by
  unfold candidateNew posNew
  have h81 : cell < 81 ↔ cell.toNat < 81 := UInt8.lt_iff_toNat_lt
  have h0 : 0 < digit ↔ 1 ≤ digit.toNat := UInt8.lt_iff_toNat_lt
  have h10 : digit < 10 ↔ digit.toNat ≤ 9 := UInt8.lt_iff_toNat_lt.trans Nat.lt_succ_iff
  by_cases h1 : cell < 81
  · by_cases h2 : 0 < digit ∧ digit < 10
    · have h3 : cell.toNat < 81 ∧ 1 ≤ digit.toNat ∧ digit.toNat ≤ 9 := ⟨h81.mp h1, h0.mp h2.1, h10.mp h2.2⟩
      rw [if_pos h3, C53_digit_new, if_pos h3.2]
      have h4 : cell < Kind.cell.limit := h1
      simp [h1, h2.1, h2.2, h4]
    · rw [if_neg (fun h => h2 ⟨h0.mpr h.2.1, h10.mpr h.2.2⟩)]
      have : (decide (0 < digit) && decide (digit < 10)) = false := by
        rw [Bool.and_eq_false_iff]
        by_cases h : 0 < digit
        · exact Or.inr (decide_eq_false (fun h' => h2 ⟨h, h'⟩))
        · exact Or.inl (decide_eq_false h)
      rw [this]
      simp [h1, Res.assert]
  · rw [if_neg (fun h => h1 (h81.mpr h.1))]
    simp [h1, Res.assert]

example : posNewChecked .house 26 = some 26 ∧ posNewChecked .house 27 = none ∧ posNew true .chute 5 = .ok 5 ∧
    posNew true .chute 6 = .panic ∧ digitNew 0 = .panic ∧ digitNew 10 = .panic ∧ candidateNew true 80 9 = .ok (80, 9) ∧
    candidateNew false 81 9 = .panic := by decide +kernel

end Verif.Props
