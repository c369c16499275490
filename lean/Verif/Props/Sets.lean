import Verif.Proofs.Bitset
import Mathlib.Data.Finset.Sort

/-!
# C38: `Set<T>` behaves as a finite set

`w` is the width of the storage integer, `n` the number of possible elements.  The instances of the
crate are `(w, n)` = (128, 81) `Cell`, (16, 9) `Digit`, (32, 18) `Line`, (32, 27) `House`,
(16, 9) `Position<Line>` and `Position<House>`; all satisfy the hypotheses.
A set value is `Valid` if it only contains possible elements.
-/
namespace Verif.Props

open Verif Bitset

/-- The sizes used by the crate. -/
example : ∀ p ∈ [(128, 81), (16, 9), (32, 18), (32, 27)], p.2 ≤ p.1 ∧ p.1 ≤ 128 ∧ p.2 < 128 := by decide

variable {w n : Nat} (hnw : n ≤ w) (hw : w ≤ 128) (hn : n < 128)

/-- C38, construction and the set operations. -/
theorem C38_operations (hnw : n ≤ w) (hn : n < 128) (a b : BitVec w) :
    elems (NONE w) = ∅ ∧ elems (ALL w n) = Finset.range n ∧
    (∀ i < w, elems (asSet w i) = {i}) ∧
    elems (union a b) = elems a ∪ elems b ∧
    elems (inter a b) = elems a ∩ elems b ∧
    elems (Bitset.symmDiff a b) = _root_.symmDiff (elems a) (elems b) ∧
    elems (without a b) = elems a \ elems b ∧
    elems (Bitset.compl n a) = Finset.range n \ elems a :=
  ⟨elems_NONE, elems_ALL hnw hn, fun _ hi => elems_asSet hi, elems_union a b, elems_inter a b,
    elems_symmDiff a b, elems_without a b, by unfold Bitset.compl; rw [elems_without, elems_ALL hnw hn]⟩

/-- C38, the predicates and the size. -/
theorem C38_predicates (hnw : n ≤ w) (hw : w ≤ 128) (hn : n < 128) (a b : BitVec w) :
    (a = b ↔ elems a = elems b) ∧
    (overlaps a b = true ↔ ∃ i, i ∈ elems a ∧ i ∈ elems b) ∧
    (contains a b = true ↔ elems b ⊆ elems a) ∧
    (len a).toNat = (elems a).card ∧
    (isEmpty a = true ↔ elems a = ∅) ∧
    (isFull n a = true ↔ elems a = Finset.range n) := by
  refine ⟨elems_inj.symm, ?_, ?_, len_toNat hw a, ?_, ?_⟩
  · unfold overlaps
    rw [bne_iff_ne, ne_eq, ← elems_inj, elems_inter, elems_NONE, ← ne_eq, ← Finset.nonempty_iff_ne_empty]
    simp [Finset.Nonempty]
  · unfold contains
    rw [beq_iff_eq, ← elems_inj, elems_inter, Finset.inter_eq_right]
  · unfold isEmpty
    rw [beq_iff_eq, ← UInt8.toNat_inj, len_toNat hw]
    simp
  · unfold isFull
    rw [beq_iff_eq, ← elems_inj, elems_ALL hnw hn]

/-- C38, `from_bits`: accepts a mask exactly if it has no bits outside the possible elements,
otherwise panics. -/
theorem C38_from_bits (hnw : n ≤ w) (hn : n < 128) (m : BitVec w) :
    (elems m ⊆ Finset.range n ∧ fromBits n m = .ok m) ∨
    (¬ elems m ⊆ Finset.range n ∧ fromBits n m = .panic) := by
  unfold fromBits
  by_cases h : elems m ⊆ Finset.range n
  · left
    rw [decide_eq_true ((le_ALL_iff hnw hn).2 h)]
    exact ⟨h, rfl⟩
  · right
    rw [decide_eq_false (fun hc => h ((le_ALL_iff hnw hn).1 hc))]
    exact ⟨h, rfl⟩

/-- C38, iteration: the elements in increasing order, each exactly once; no panic. -/
theorem C38_iter (hnw : n ≤ w) (hn : n < 128) (a : BitVec w) (ha : elems a ⊆ Finset.range n) :
    iter n a = .ok ((elems a).sort (· ≤ ·)) := by
  obtain ⟨l, e, hs, hm⟩ := iter_spec hnw hn ha
  rw [e]
  congr 1
  have hp : l.Pairwise (· < ·) := hs.pairwise
  have he : l.toFinset = elems a := by ext i; rw [List.mem_toFinset, hm]
  rw [← he]
  exact (List.toFinset_sort (· ≤ ·) (hp.imp (fun h => Nat.ne_of_lt h))).2 (hp.imp (fun h => Nat.le_of_lt h)) |>.symm

/-- C38, `unique`: distinguishes empty, singleton and larger sets. -/
theorem C38_unique (hnw : n ≤ w) (hw : w ≤ 128) (hn : n < 128) (a : BitVec w) (ha : elems a ⊆ Finset.range n) :
    (elems a = ∅ ∧ unique n a = .ok (.error ())) ∨
    (∃ i, elems a = {i} ∧ unique n a = .ok (.ok (some i))) ∨
    (2 ≤ (elems a).card ∧ unique n a = .ok (.ok none)) :=
  unique_spec hnw hw hn ha

/-- C38, `one_possibility` returns the smallest element of a non-empty set. -/
theorem C38_one_possibility (hnw : n ≤ w) (hn : n < 128) (a : BitVec w) (ha : elems a ⊆ Finset.range n) :
    (elems a = ∅ ∧ onePossibility n a = .panic) ∨
    ∃ i ∈ elems a, (∀ j ∈ elems a, i ≤ j) ∧ onePossibility n a = .ok i := by
  unfold onePossibility
  rcases next_spec hnw hn ha with ⟨h0, he⟩ | ⟨i, rest, he, hi, hmin, _⟩
  · left; rw [he]; exact ⟨elems_eq_empty.2 h0, rfl⟩
  · right; rw [he]; exact ⟨i, hi, hmin, rfl⟩

/-- Non-vacuity: a set of digits (indices 0, 3 and 8) iterates as expected, a full set of cells is
valid. -/
example : iter 9 (0b100001001#16) = .ok [0, 3, 8] ∧ unique 9 (0b100#16) = .ok (.ok (some 2)) ∧
    unique 9 (0b110#16) = .ok (.ok none) ∧ unique 9 (0#16) = .ok (.error ()) := by
  refine ⟨by rfl, by rfl, by rfl, by rfl⟩

example : elems (ALL 128 81) ⊆ Finset.range 81 := by rw [elems_ALL (by omega) (by omega)]

end Verif.Props
