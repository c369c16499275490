import Verif.Model.Bitset
import Verif.Spec.Sets
import Mathlib.Data.Finset.Card
import Mathlib.Data.List.Sort

/-! Bit sets as finite sets. -/
namespace Verif.Bitset

variable {w n : Nat}

theorem mem_elems {a : BitVec w} {i : Nat} : i ∈ elems a ↔ a.getLsbD i = true := by
  simp only [elems, Finset.mem_filter, Finset.mem_range, and_iff_right_iff_imp]
  exact BitVec.lt_of_getLsbD

theorem elems_inj {a b : BitVec w} : elems a = elems b ↔ a = b := by
  constructor
  · intro h
    apply BitVec.eq_of_getLsbD_eq
    intro i _
    rw [Bool.eq_iff_iff, ← mem_elems, ← mem_elems, h]
  · rintro rfl; rfl

theorem nBitsSet_toNat (hn : n < 128) : (nBitsSet n).toNat = 2 ^ n - 1 := by
  unfold nBitsSet
  have h2 : 2 ^ n < 2 ^ 128 := Nat.pow_lt_pow_right (by omega) hn
  have h1 : 0 < 2 ^ n := Nat.two_pow_pos n
  have h3 : (1#128 <<< n).toNat = 2 ^ n := by
    rw [← BitVec.twoPow_eq, BitVec.toNat_twoPow, Nat.mod_eq_of_lt h2]
  rw [BitVec.toNat_sub_of_le]
  · rw [h3]; rfl
  · show (1#128).toNat ≤ _
    rw [h3]; exact h1

theorem ALL_toNat (hnw : n ≤ w) (hn : n < 128) : (ALL w n).toNat = 2 ^ n - 1 := by
  unfold ALL
  rw [BitVec.toNat_setWidth, nBitsSet_toNat hn]
  apply Nat.mod_eq_of_lt
  have := Nat.pow_le_pow_right (n := 2) (by omega) hnw
  have h1 : 0 < 2 ^ n := Nat.two_pow_pos n
  omega

theorem getLsbD_ALL (hnw : n ≤ w) (hn : n < 128) (i : Nat) : (ALL w n).getLsbD i = decide (i < n) := by
  unfold BitVec.getLsbD
  rw [ALL_toNat hnw hn, Nat.testBit_two_pow_sub_one]

theorem elems_ALL (hnw : n ≤ w) (hn : n < 128) : elems (ALL w n) = Finset.range n := by
  ext i
  rw [mem_elems, getLsbD_ALL hnw hn]
  simp

theorem le_ALL_iff (hnw : n ≤ w) (hn : n < 128) {a : BitVec w} : a ≤ ALL w n ↔ elems a ⊆ Finset.range n := by
  rw [BitVec.le_def, ALL_toNat hnw hn]
  have h1 : 0 < 2 ^ n := Nat.two_pow_pos n
  constructor
  · intro h i hi
    rw [mem_elems] at hi
    rw [Finset.mem_range]
    by_contra hc
    have : a.toNat < 2 ^ i := lt_of_lt_of_le (by omega) (Nat.pow_le_pow_right (n := 2) (by omega) (show n ≤ i by omega))
    have := Nat.testBit_lt_two_pow this
    unfold BitVec.getLsbD at hi
    rw [this] at hi; cases hi
  · intro h
    have : a.toNat < 2 ^ n := by
      apply Nat.lt_pow_two_of_testBit
      intro i hi
      by_contra hc
      have : i ∈ elems a := mem_elems.2 (by unfold BitVec.getLsbD; simpa using hc)
      have := Finset.mem_range.1 (h this)
      omega
    omega

theorem elems_NONE : elems (NONE w) = ∅ := by
  ext i; rw [mem_elems]; simp [NONE]

theorem elems_eq_empty {a : BitVec w} : elems a = ∅ ↔ a = 0#w := by
  rw [← elems_inj (b := 0#w)]
  have : elems (0#w) = ∅ := elems_NONE
  rw [this]

theorem getLsbD_asSet {i j : Nat} (hi : i < w) : (asSet w i).getLsbD j = decide (i = j) := by
  unfold asSet
  rw [← BitVec.twoPow_eq, BitVec.getLsbD_twoPow]
  simp [hi]

theorem elems_asSet {i : Nat} (hi : i < w) : elems (asSet w i) = {i} := by
  ext j; rw [mem_elems, getLsbD_asSet hi]; simp [eq_comm]

theorem elems_inter (a b : BitVec w) : elems (inter a b) = elems a ∩ elems b := by
  ext i; simp only [mem_elems, inter, BitVec.getLsbD_and, Finset.mem_inter, Bool.and_eq_true]

theorem elems_union (a b : BitVec w) : elems (union a b) = elems a ∪ elems b := by
  ext i; simp only [mem_elems, union, BitVec.getLsbD_or, Finset.mem_union, Bool.or_eq_true]

theorem elems_symmDiff (a b : BitVec w) : elems (symmDiff a b) = _root_.symmDiff (elems a) (elems b) := by
  ext i
  simp only [mem_elems, symmDiff, BitVec.getLsbD_xor, Finset.mem_symmDiff]
  cases a.getLsbD i <;> cases b.getLsbD i <;> simp

theorem elems_without (a b : BitVec w) : elems (without a b) = elems a \ elems b := by
  ext i
  simp only [mem_elems, without, Finset.mem_sdiff, BitVec.getLsbD_and, BitVec.getLsbD_not]
  by_cases hi : i < w
  · cases a.getLsbD i <;> cases b.getLsbD i <;> simp [hi]
  · have : a.getLsbD i = false := BitVec.getLsbD_of_ge _ _ (by omega)
    simp [this]

theorem card_elems (a : BitVec w) : (elems a).card = countOnes a := by
  unfold elems countOnes
  rw [← List.toFinset_card_of_nodup (List.Nodup.filter _ List.nodup_range)]
  congr 1
  ext i; simp

theorem countOnes_le (a : BitVec w) : countOnes a ≤ w := by
  unfold countOnes
  exact le_trans (List.length_filter_le _ _) (by simp)

theorem len_toNat (hw : w ≤ 128) (a : BitVec w) : (len a).toNat = (elems a).card := by
  have := countOnes_le a
  rw [card_elems]
  unfold len
  simp; omega

theorem lowBitFrom_spec (m : BitVec w) (k i : Nat) (h : ∃ j, i ≤ j ∧ j < i + k ∧ m.getLsbD j = true) :
    m.getLsbD (lowBitFrom m i k) = true ∧ ∀ j, i ≤ j → j < lowBitFrom m i k → m.getLsbD j = false := by
  induction k generalizing i with
  | zero => obtain ⟨j, h1, h2, _⟩ := h; omega
  | succ n ih =>
    unfold lowBitFrom
    by_cases hb : m.getLsbD i = true
    · rw [if_pos hb]
      exact ⟨hb, fun j h1 h2 => by omega⟩
    · rw [if_neg hb]
      have h' : ∃ j, i + 1 ≤ j ∧ j < i + 1 + n ∧ m.getLsbD j = true := by
        obtain ⟨j, h1, h2, h3⟩ := h
        refine ⟨j, ?_, by omega, h3⟩
        rcases Nat.eq_or_lt_of_le h1 with e | e
        · subst e; exact absurd h3 hb
        · omega
      obtain ⟨b, c⟩ := ih (i + 1) h'
      refine ⟨b, fun j h1 h2 => ?_⟩
      rcases Nat.eq_or_lt_of_le h1 with e | e
      · subst e; simpa using hb
      · exact c j e h2

theorem trailingZeros_spec {m : BitVec w} (h : m ≠ 0#w) :
    m.getLsbD (trailingZeros m) = true ∧ ∀ j < trailingZeros m, m.getLsbD j = false := by
  have : ∃ j, 0 ≤ j ∧ j < 0 + w ∧ m.getLsbD j = true := by
    obtain ⟨i, hi⟩ := Finset.nonempty_iff_ne_empty.2 (fun e => h (elems_eq_empty.1 e))
    rw [mem_elems] at hi
    exact ⟨i, by omega, by simpa using BitVec.lt_of_getLsbD hi, hi⟩
  obtain ⟨b, c⟩ := lowBitFrom_spec m w 0 this
  exact ⟨b, fun j hj => c j (Nat.zero_le _) hj⟩

theorem getLsbD_lowest (m : BitVec w) (i : Nat) :
    (m &&& (~~~m + 1#w)).getLsbD i = (m.getLsbD i && !decide (∃ j < i, m.getLsbD j = true)) := by
  rw [← BitVec.neg_eq_not_add, BitVec.getLsbD_and, BitVec.getLsbD_neg]
  by_cases hi : i < w
  · cases hm : m.getLsbD i <;> simp [hi]
  · have : m.getLsbD i = false := BitVec.getLsbD_of_ge _ _ (by omega)
    simp [this]

/-- One step of the iterator takes out the smallest element. -/
theorem next_spec (hnw : n ≤ w) (hn : n < 128) {a : BitVec w} (ha : elems a ⊆ Finset.range n) :
    (a = 0#w ∧ next n a = .ok none) ∨
    ∃ i rest, next n a = .ok (some (i, rest)) ∧ i ∈ elems a ∧ (∀ j ∈ elems a, i ≤ j) ∧
      elems rest = (elems a).erase i := by
  unfold next
  have hle : decide (a ≤ ALL w n) = true := decide_eq_true ((le_ALL_iff hnw hn).2 ha)
  rw [hle]
  simp only [Res.assert_true, Res.ok_bind]
  by_cases h : a = 0#w
  · left; exact ⟨h, if_pos h⟩
  · right
    rw [if_neg h]
    obtain ⟨t1, t2⟩ := trailingZeros_spec h
    have hlow : ∀ i, (a &&& (~~~a + 1#w)).getLsbD i = decide (i = trailingZeros a) := by
      intro i
      rw [getLsbD_lowest]
      rcases Nat.lt_trichotomy i (trailingZeros a) with e | e | e
      · rw [t2 i e]; simp; omega
      · subst e
        have : ¬ ∃ j < trailingZeros a, a.getLsbD j = true := by
          rintro ⟨j, hj, hj'⟩; rw [t2 j hj] at hj'; cases hj'
        simp [t1, this]
      · have : ∃ j < i, a.getLsbD j = true := ⟨_, e, t1⟩
        simp [this]; omega
    have htz : trailingZeros (a &&& (~~~a + 1#w)) = trailingZeros a := by
      have hne : (a &&& (~~~a + 1#w)) ≠ 0#w := by
        intro e
        have := hlow (trailingZeros a)
        rw [e] at this; simp at this
      have := (trailingZeros_spec hne).1
      rw [hlow] at this
      exact of_decide_eq_true this
    refine ⟨_, _, rfl, ?_, ?_, ?_⟩
    · rw [htz, mem_elems]; exact t1
    · intro j hj
      rw [htz]
      rw [mem_elems] at hj
      by_contra hc
      rw [t2 j (by omega)] at hj; cases hj
    · ext i
      rw [htz, Finset.mem_erase, mem_elems, mem_elems, BitVec.getLsbD_xor, hlow]
      by_cases e : i = trailingZeros a
      · subst e; simp [t1]
      · simp [e]

theorem unique_spec (hnw : n ≤ w) (hw : w ≤ 128) (hn : n < 128) {a : BitVec w} (ha : elems a ⊆ Finset.range n) :
    (elems a = ∅ ∧ unique n a = .ok (.error ())) ∨
    (∃ i, elems a = {i} ∧ unique n a = .ok (.ok (some i))) ∨
    (2 ≤ (elems a).card ∧ unique n a = .ok (.ok none)) := by
  have hl := len_toNat hw a
  unfold unique
  by_cases h1 : len a = 1
  · right; left
    rw [if_pos h1]
    have hc : (elems a).card = 1 := by rw [← hl, h1]; rfl
    obtain ⟨i, hi⟩ := Finset.card_eq_one.1 hc
    rcases next_spec hnw hn ha with ⟨h0, _⟩ | ⟨j, rest, he, hj, _, _⟩
    · rw [elems_eq_empty.2 h0] at hc; simp at hc
    · rw [hi, Finset.mem_singleton] at hj
      subst hj
      refine ⟨j, hi, ?_⟩
      rw [he]; rfl
  · rw [if_neg h1]
    by_cases h0 : len a = 0
    · left
      rw [if_pos h0]
      rw [h0] at hl
      exact ⟨Finset.card_eq_zero.1 hl.symm, rfl⟩
    · right; right
      rw [if_neg h0]
      refine ⟨?_, rfl⟩
      have e0 : (len a).toNat ≠ 0 := fun e => h0 (UInt8.toNat_inj.1 e)
      have e1 : (len a).toNat ≠ 1 := fun e => h1 (UInt8.toNat_inj.1 e)
      omega

theorem iterAux_spec (hnw : n ≤ w) (hn : n < 128) (fuel : Nat) : ∀ {a : BitVec w}, elems a ⊆ Finset.range n →
    (elems a).card < fuel → ∃ l, iterAux n fuel a = .ok l ∧ l.SortedLT ∧ ∀ i, i ∈ l ↔ i ∈ elems a := by
  induction fuel with
  | zero => intro a _ h; omega
  | succ fuel ih =>
    intro a ha hc
    unfold iterAux
    rcases next_spec hnw hn ha with ⟨h0, he⟩ | ⟨i, rest, he, hi, hmin, hrest⟩
    · rw [he]
      refine ⟨[], rfl, List.sortedLT_iff_pairwise.2 List.Pairwise.nil, fun i => ?_⟩
      rw [elems_eq_empty.2 h0]; simp
    · rw [he]
      simp only [Res.ok_bind]
      have hcard := Finset.card_erase_of_mem hi
      have hpos : 0 < (elems a).card := Finset.card_pos.2 ⟨i, hi⟩
      obtain ⟨l, e, hs, hm⟩ := ih (a := rest) (by rw [hrest]; exact (Finset.erase_subset _ _).trans ha) (by rw [hrest]; omega)
      rw [e]
      refine ⟨i :: l, rfl, ?_, fun j => ?_⟩
      · rw [List.sortedLT_iff_pairwise, List.pairwise_cons]
        refine ⟨fun j hj => ?_, hs.pairwise⟩
        rw [hm, hrest, Finset.mem_erase] at hj
        exact lt_of_le_of_ne (hmin j hj.2) (Ne.symm hj.1)
      · rw [List.mem_cons, hm, hrest, Finset.mem_erase]
        constructor
        · rintro (rfl | h)
          · exact hi
          · exact h.2
        · intro h
          by_cases e : j = i
          · exact Or.inl e
          · exact Or.inr ⟨e, h⟩

theorem iter_spec (hnw : n ≤ w) (hn : n < 128) {a : BitVec w} (ha : elems a ⊆ Finset.range n) :
    ∃ l, iter n a = .ok l ∧ l.SortedLT ∧ ∀ i, i ∈ l ↔ i ∈ elems a := by
  apply iterAux_spec hnw hn _ ha
  rw [card_elems]
  have := countOnes_le a
  omega

end Verif.Bitset
