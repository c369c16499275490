import Verif.Model.Candidate
import Verif.Proofs.Bitset
import Verif.Proofs.ResMonad

/-! Iterating over bit sets as lists of positions. -/
namespace Verif.Bitset

variable {w n : Nat}

/-- All members are possible positions. -/
def Fits (n : Nat) (a : BitVec w) : Prop := ∀ i, a.getLsbD i = true → i < n

theorem fits_iff {a : BitVec w} : Fits n a ↔ elems a ⊆ Finset.range n := by
  constructor
  · intro h i hi
    exact Finset.mem_range.mpr (h i (mem_elems.mp hi))
  · intro h i hi
    exact Finset.mem_range.mp (h (mem_elems.mpr hi))

/-- The members of a set, in increasing order. -/
def mems (n : Nat) (a : BitVec w) : List (Fin n) := (List.finRange n).filter (fun i => a.getLsbD i.val)

theorem mem_mems {a : BitVec w} {i : Fin n} : i ∈ mems n a ↔ a.getLsbD i.val = true := by
  simp [mems]

theorem nodup_mems (a : BitVec w) : (mems n a).Nodup := (List.nodup_finRange n).filter _

theorem items_eq (hnw : n ≤ w) (hn : n < 128) {a : BitVec w} (ha : Fits n a) : items n a = .ok (mems n a) := by
  obtain ⟨l, e, hs, hm⟩ := iter_spec hnw hn (fits_iff.mp ha)
  unfold items
  rw [e, Res.ok_bind]
  have hl : l = (mems n a).map Fin.val := by
    apply List.SortedLT.eq_of_mem_iff hs
    · rw [List.sortedLT_iff_pairwise, List.pairwise_map]
      exact (List.pairwise_lt_finRange n).filter _
    · intro i
      rw [hm, List.mem_map]
      constructor
      · intro hi
        have hi := mem_elems.mp hi
        exact ⟨⟨i, ha i hi⟩, mem_mems.mpr hi, rfl⟩
      · rintro ⟨j, hj, rfl⟩
        exact mem_elems.mpr (mem_mems.mp hj)
  rw [hl, List.mapM_map]
  rw [Res.mapM_ok _ id]
  · simp
  · intro x _
    exact dif_pos x.isLt

theorem uniqueItem_spec (hnw : n ≤ w) (hw : w ≤ 128) (hn : n < 128) {a : BitVec w} (ha : Fits n a) :
    (a = 0#w ∧ uniqueItem n a = .ok (.error ())) ∨
    (∃ i : Fin n, (∀ j, a.getLsbD j = true ↔ j = i.val) ∧ uniqueItem n a = .ok (.ok (some i))) ∨
    (2 ≤ (elems a).card ∧ uniqueItem n a = .ok (.ok none)) := by
  rcases unique_spec hnw hw hn (fits_iff.mp ha) with ⟨h, e⟩ | ⟨i, h, e⟩ | ⟨h, e⟩
  · left
    refine ⟨elems_eq_empty.mp h, ?_⟩
    unfold uniqueItem; rw [e]; rfl
  · right; left
    have hb : ∀ j, a.getLsbD j = true ↔ j = i := by
      intro j; rw [← mem_elems, h, Finset.mem_singleton]
    have hi : i < n := ha i ((hb i).mpr rfl)
    refine ⟨⟨i, hi⟩, hb, ?_⟩
    unfold uniqueItem; rw [e]
    simp only [Res.ok_bind]
    rw [toFin, dif_pos hi, Res.ok_bind]
  · right; right
    refine ⟨h, ?_⟩
    unfold uniqueItem; rw [e]; rfl

theorem isEmpty_iff (hw : w ≤ 128) {a : BitVec w} : isEmpty a = true ↔ a = 0#w := by
  unfold isEmpty
  rw [beq_iff_eq, ← UInt8.toNat_inj, len_toNat hw]
  rw [← elems_eq_empty, ← Finset.card_eq_zero]
  rfl

theorem overlaps_iff {a b : BitVec w} : overlaps a b = true ↔ ∃ i, a.getLsbD i = true ∧ b.getLsbD i = true := by
  unfold overlaps
  rw [bne_iff_ne, ne_eq, ← elems_inj, elems_NONE, elems_inter, ← ne_eq, ← Finset.nonempty_iff_ne_empty]
  constructor
  · rintro ⟨i, hi⟩
    rw [Finset.mem_inter, mem_elems, mem_elems] at hi
    exact ⟨i, hi⟩
  · rintro ⟨i, hi⟩
    exact ⟨i, by rw [Finset.mem_inter, mem_elems, mem_elems]; exact hi⟩

theorem bit_inter (a b : BitVec w) (i : Nat) : (inter a b).getLsbD i = (a.getLsbD i && b.getLsbD i) := by
  simp [inter]
theorem bit_union (a b : BitVec w) (i : Nat) : (union a b).getLsbD i = (a.getLsbD i || b.getLsbD i) := by
  simp [union]
theorem bit_without (a b : BitVec w) (i : Nat) : (without a b).getLsbD i = (a.getLsbD i && !b.getLsbD i) := by
  unfold without
  rw [BitVec.getLsbD_and, BitVec.getLsbD_not]
  by_cases h : i < w
  · simp [h]
  · rw [BitVec.getLsbD_of_ge a i (by omega)]; simp
theorem bit_none (i : Nat) : (NONE w).getLsbD i = false := by simp [NONE]
theorem bit_asSet {i j : Nat} (hi : i < w) : (asSet w i).getLsbD j = true ↔ i = j := by
  rw [getLsbD_asSet hi, decide_eq_true_iff]
theorem bit_all (hnw : n ≤ w) (hn : n < 128) (i : Nat) : (ALL w n).getLsbD i = true ↔ i < n := by
  rw [getLsbD_ALL hnw hn, decide_eq_true_iff]

theorem eq_zero_iff {a : BitVec w} : a = 0#w ↔ ∀ i, a.getLsbD i = false := by
  constructor
  · rintro rfl i; simp
  · intro h
    apply BitVec.eq_of_getLsbD_eq
    intro i _
    rw [h]; simp

theorem ne_zero_iff {a : BitVec w} : a ≠ 0#w ↔ ∃ i, a.getLsbD i = true := by
  rw [ne_eq, eq_zero_iff]; simp

theorem Fits.inter_left {a b : BitVec w} (h : Fits n a) : Fits n (inter a b) := by
  intro i hi
  rw [bit_inter, Bool.and_eq_true] at hi
  exact h i hi.1
theorem Fits.without {a b : BitVec w} (h : Fits n a) : Fits n (Bitset.without a b) := by
  intro i hi
  rw [bit_without, Bool.and_eq_true] at hi
  exact h i hi.1
theorem Fits.union {a b : BitVec w} (h : Fits n a) (h' : Fits n b) : Fits n (Bitset.union a b) := by
  intro i hi
  rw [bit_union, Bool.or_eq_true] at hi
  exact hi.elim (h i) (h' i)
theorem fits_all (hnw : n ≤ w) (hn : n < 128) : Fits n (ALL w n) := fun i hi => (bit_all hnw hn i).mp hi
theorem fits_none : Fits n (NONE w) := by intro i hi; rw [bit_none] at hi; simp at hi
theorem fits_asSet {i : Nat} (hi : i < w) (hn : i < n) : Fits n (asSet w i) := by
  intro j hj
  rw [bit_asSet hi] at hj
  omega

theorem len_eq_card (hw : w ≤ 128) (a : BitVec w) : (len a).toNat = (elems a).card := len_toNat hw a

theorem length_mems {a : BitVec w} (ha : Fits n a) : (mems n a).length = (elems a).card := by
  have : elems a = ((mems n a).map Fin.val).toFinset := by
    ext i
    rw [mem_elems, List.mem_toFinset, List.mem_map]
    constructor
    · intro hi; exact ⟨⟨i, ha i hi⟩, mem_mems.mpr hi, rfl⟩
    · rintro ⟨j, hj, rfl⟩; exact mem_mems.mp hj
  rw [this, List.toFinset_card_of_nodup, List.length_map]
  exact (nodup_mems a).map Fin.val_injective

end Verif.Bitset
