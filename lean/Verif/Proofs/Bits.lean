import Verif.Model.FastSolver

/-! Bit-level lemmas about masks and `mask_iter`. -/
namespace Verif.FastSolver

theorem getLsbD_lowestBit (m : Mask) (i : Nat) :
    (lowestBit m).getLsbD i = (m.getLsbD i && !decide (∃ j < i, m.getLsbD j = true)) := by
  have h : (~~~m + 1 : Mask) = -m := by rw [BitVec.neg_eq_not_add]; rfl
  unfold lowestBit
  rw [h, BitVec.getLsbD_and, BitVec.getLsbD_neg]
  by_cases hi : i < 32
  · cases hm : m.getLsbD i <;> simp [hi]
  · have : m.getLsbD i = false := BitVec.getLsbD_of_ge _ _ (by omega)
    simp [this]

/-- Positions of the set bits, in increasing order. -/
def bitList (m : Mask) : List Nat := (List.range 32).filter (fun i => m.getLsbD i)

theorem mem_bitList {m : Mask} {i : Nat} : i ∈ bitList m ↔ m.getLsbD i = true := by
  simp only [bitList, List.mem_filter, List.mem_range, and_iff_right_iff_imp]
  intro h
  exact BitVec.lt_of_getLsbD h

theorem bitList_nodup (m : Mask) : (bitList m).Nodup :=
  List.Nodup.filter _ List.nodup_range

theorem lowBitFrom_spec (m : Mask) (n i : Nat) (h : ∃ j, i ≤ j ∧ j < i + n ∧ m.getLsbD j = true) :
    i ≤ lowBitFrom m i n ∧ m.getLsbD (lowBitFrom m i n) = true ∧
      ∀ j, i ≤ j → j < lowBitFrom m i n → m.getLsbD j = false := by
  induction n generalizing i with
  | zero => obtain ⟨j, h1, h2, _⟩ := h; omega
  | succ n ih =>
    unfold lowBitFrom
    by_cases hb : m.getLsbD i = true
    · rw [if_pos hb]
      exact ⟨le_refl _, hb, fun j h1 h2 => by omega⟩
    · rw [if_neg hb]
      have h' : ∃ j, i + 1 ≤ j ∧ j < i + 1 + n ∧ m.getLsbD j = true := by
        obtain ⟨j, h1, h2, h3⟩ := h
        refine ⟨j, ?_, by omega, h3⟩
        rcases Nat.eq_or_lt_of_le h1 with e | e
        · subst e; exact absurd h3 hb
        · omega
      obtain ⟨a, b, c⟩ := ih (i + 1) h'
      refine ⟨by omega, b, fun j h1 h2 => ?_⟩
      rcases Nat.eq_or_lt_of_le h1 with e | e
      · subst e; simpa using hb
      · exact c j e h2

theorem bitPos_spec {m : Mask} (h : m ≠ 0) :
    m.getLsbD (bitPos m) = true ∧ ∀ j < bitPos m, m.getLsbD j = false := by
  have : ∃ j, 0 ≤ j ∧ j < 0 + 32 ∧ m.getLsbD j = true := by
    by_contra hc
    apply h
    apply BitVec.eq_of_getLsbD_eq
    intro i hi
    simp only [BitVec.ofNat_eq_ofNat, BitVec.getLsbD_zero]
    by_contra hne
    exact hc ⟨i, by omega, by omega, by simpa using hne⟩
  obtain ⟨_, b, c⟩ := lowBitFrom_spec m 32 0 this
  exact ⟨b, fun j hj => c j (Nat.zero_le _) hj⟩

theorem bitPos_lt {m : Mask} (h : m ≠ 0) : bitPos m < 32 :=
  BitVec.lt_of_getLsbD (bitPos_spec h).1

theorem lowestBit_eq {m : Mask} (h : m ≠ 0) : lowestBit m = BitVec.twoPow 32 (bitPos m) := by
  obtain ⟨h1, h2⟩ := bitPos_spec h
  apply BitVec.eq_of_getLsbD_eq
  intro i hi
  rw [getLsbD_lowestBit, BitVec.getLsbD_twoPow]
  rcases Nat.lt_trichotomy i (bitPos m) with e | e | e
  · rw [h2 i e]; simp; omega
  · subst e
    have : ¬ ∃ j < bitPos m, m.getLsbD j = true := by
      rintro ⟨j, hj, hj'⟩; rw [h2 j hj] at hj'; cases hj'
    simp [h1, this, hi]
  · have : ∃ j < i, m.getLsbD j = true := ⟨_, e, h1⟩
    simp [this]; omega

theorem ne_zero_of_getLsbD {m : Mask} {i : Nat} (h : m.getLsbD i = true) : m ≠ 0 := by
  rintro rfl; simp at h

theorem exists_getLsbD {m : Mask} (h : m ≠ 0) : ∃ i, m.getLsbD i = true := ⟨_, (bitPos_spec h).1⟩

theorem eq_zero_iff {m : Mask} : m = 0 ↔ ∀ i, m.getLsbD i = false := by
  constructor
  · rintro rfl; simp
  · intro h
    apply BitVec.eq_of_getLsbD_eq
    intro i hi
    simp [h i]

theorem and_twoPow_eq_zero {m : Mask} {i : Nat} (hi : i < 32) :
    m &&& BitVec.twoPow 32 i = 0 ↔ m.getLsbD i = false := by
  rw [eq_zero_iff]
  constructor
  · intro h
    have := h i
    simpa [hi] using this
  · intro h j
    simp only [BitVec.getLsbD_and, BitVec.getLsbD_twoPow]
    by_cases e : i = j
    · subst e; simp [h]
    · simp [e]

theorem getLsbD_twoPow_of_lt {i j : Nat} (hi : i < 32) :
    (BitVec.twoPow 32 i).getLsbD j = decide (i = j) := by
  rw [BitVec.getLsbD_twoPow]
  simp [hi]

theorem bitPos_twoPow {i : Nat} (hi : i < 32) : bitPos (BitVec.twoPow 32 i) = i := by
  have hne : BitVec.twoPow 32 i ≠ 0 := ne_zero_of_getLsbD (i := i) (by simp [hi])
  have := (bitPos_spec hne).1
  rw [getLsbD_twoPow_of_lt hi] at this
  exact (of_decide_eq_true this).symm

theorem filter_range_succ_lowest {m : Mask} (h : m ≠ 0) :
    bitList m = bitPos m :: bitList (m ^^^ lowestBit m) := by
  obtain ⟨h1, h2⟩ := bitPos_spec h
  have hlt := bitPos_lt h
  have e : ∀ i, (m ^^^ lowestBit m).getLsbD i = (m.getLsbD i && decide (bitPos m < i)) := by
    intro i
    rw [lowestBit_eq h, BitVec.getLsbD_xor, getLsbD_twoPow_of_lt hlt]
    rcases Nat.lt_trichotomy i (bitPos m) with g | g | g
    · rw [h2 i g]; simp; omega
    · subst g; simp [h1]
    · have : bitPos m ≠ i := by omega
      simp [this, g]
  have hsp : ∀ n k, k < n → (∀ i < k, m.getLsbD i = false) → m.getLsbD k = true →
      (List.range n).filter (fun i => m.getLsbD i)
        = k :: (List.range n).filter (fun i => m.getLsbD i && decide (k < i)) := by
    intro n k hk hlow hkt
    obtain ⟨d, rfl⟩ := Nat.exists_eq_add_of_lt hk
    have hr : List.range (k + d + 1) = List.range k ++ k :: (List.range d).map (fun x => k + 1 + x) := by
      rw [show k + d + 1 = k + (d + 1) by omega, List.range_add]
      congr 1
      rw [List.range_succ_eq_map]
      simp [Function.comp_def, Nat.add_comm, Nat.add_left_comm]
    rw [hr]
    simp only [List.filter_append, List.filter_cons, hkt, if_true, Nat.lt_irrefl, decide_false,
      Bool.and_false]
    have z1 : (List.range k).filter (fun i => m.getLsbD i) = [] := by
      rw [List.filter_eq_nil_iff]
      intro a ha
      simp [hlow a (List.mem_range.1 ha)]
    have z2 : (List.range k).filter (fun i => m.getLsbD i && decide (k < i)) = [] := by
      rw [List.filter_eq_nil_iff]
      intro a ha
      simp [hlow a (List.mem_range.1 ha)]
    rw [z1, z2]
    simp only [List.nil_append]
    congr 1
    apply List.filter_congr
    intro x hx
    obtain ⟨y, _, rfl⟩ := List.mem_map.1 hx
    simp
    omega
  unfold bitList
  simp only [e]
  exact hsp 32 (bitPos m) hlt h2 h1

theorem maskIterAux_eq (n : Nat) (m : Mask) (h : (bitList m).length ≤ n) :
    maskIterAux n m = (bitList m).map (BitVec.twoPow 32) := by
  induction n generalizing m with
  | zero =>
    have : bitList m = [] := List.eq_nil_of_length_eq_zero (by omega)
    simp [maskIterAux, this]
  | succ n ih =>
    unfold maskIterAux
    by_cases hm : m = 0
    · subst hm; simp [bitList]
    · rw [if_neg hm]
      have hl := filter_range_succ_lowest hm
      rw [hl] at h ⊢
      simp only [List.map_cons, List.length_cons] at h ⊢
      rw [ih _ (by omega), lowestBit_eq hm]

theorem maskIter_eq (m : Mask) : maskIter m = (bitList m).map (BitVec.twoPow 32) := by
  apply maskIterAux_eq
  exact le_trans (List.length_filter_le _ _) (by simp)

theorem mem_maskIter {m x : Mask} : x ∈ maskIter m ↔ ∃ i, m.getLsbD i = true ∧ x = BitVec.twoPow 32 i := by
  rw [maskIter_eq, List.mem_map]
  constructor
  · rintro ⟨i, h, rfl⟩; exact ⟨i, mem_bitList.1 h, rfl⟩
  · rintro ⟨i, h, rfl⟩; exact ⟨i, mem_bitList.2 h, rfl⟩

theorem maskIter_twoPow {i : Nat} (hi : i < 32) :
    maskIter (BitVec.twoPow 32 i) = [BitVec.twoPow 32 i] := by
  have hne : BitVec.twoPow 32 i ≠ 0 := ne_zero_of_getLsbD (i := i) (by simp [hi])
  rw [maskIter_eq, filter_range_succ_lowest hne, lowestBit_eq hne, bitPos_twoPow hi]
  simp [bitList]

theorem maskIter_eq_nil {m : Mask} : maskIter m = [] ↔ m = 0 := by
  constructor
  · intro h
    by_contra hm
    obtain ⟨i, hi⟩ := exists_getLsbD hm
    have : BitVec.twoPow 32 i ∈ maskIter m := mem_maskIter.2 ⟨i, hi, rfl⟩
    rw [h] at this; cases this
  · rintro rfl; simp [maskIter, maskIterAux]

end Verif.FastSolver
