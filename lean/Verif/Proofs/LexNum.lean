import Verif.Model.Text
import Verif.Spec.Equivalence

/-!
# Lexicographic comparison of byte lists of the same length as comparison of numbers
-/
namespace Verif

open Sudoku

/-- The bytes as a number in base 256. -/
def num : List UInt8 → Nat
  | [] => 0
  | x :: xs => x.toNat * 256 ^ xs.length + num xs

theorem num_lt (l : List UInt8) : num l < 256 ^ l.length := by
  induction l with
  | nil => simp [num]
  | cons x xs ih =>
    have hx : x.toNat < 256 := x.toNat_lt
    simp only [num, List.length_cons, Nat.pow_succ]
    have : (x.toNat + 1) * 256 ^ xs.length ≤ 256 * 256 ^ xs.length := Nat.mul_le_mul_right _ hx
    rw [Nat.add_mul] at this
    omega

theorem num_cons_lt {a b : UInt8} {as bs : List UInt8} (h : as.length = bs.length) (hab : a < b) :
    num (a :: as) < num (b :: bs) := by
  have h1 := num_lt as
  have h2 := UInt8.lt_iff_toNat_lt.mp hab
  simp only [num, h] at h1 ⊢
  have : (a.toNat + 1) * 256 ^ bs.length ≤ b.toNat * 256 ^ bs.length := Nat.mul_le_mul_right _ h2
  rw [Nat.add_mul] at this
  omega

theorem arrayCmp_eq_compare (a b : List UInt8) (h : a.length = b.length) :
    arrayCmp a b = compare (num a) (num b) := by
  induction a generalizing b with
  | nil =>
    cases b with
    | nil => rfl
    | cons y ys => simp at h
  | cons x xs ih =>
    cases b with
    | nil => simp at h
    | cons y ys =>
      have hl : xs.length = ys.length := by simpa using h
      unfold arrayCmp
      by_cases h1 : x < y
      · rw [if_pos h1]
        exact (Nat.compare_eq_lt.mpr (num_cons_lt hl h1)).symm
      · rw [if_neg h1]
        by_cases h2 : y < x
        · rw [if_pos h2]
          exact (Nat.compare_eq_gt.mpr (num_cons_lt hl.symm h2)).symm
        · rw [if_neg h2, ih ys hl]
          have : x = y := by
            apply UInt8.toNat_inj.mp
            rw [UInt8.lt_iff_toNat_lt] at h1 h2
            omega
          subst this
          simp only [num, hl]
          rcases Nat.lt_trichotomy (num xs) (num ys) with h3 | h3 | h3
          · rw [Nat.compare_eq_lt.mpr h3, Nat.compare_eq_lt.mpr (by omega)]
          · rw [Nat.compare_eq_eq.mpr h3, Nat.compare_eq_eq.mpr (by omega)]
          · rw [Nat.compare_eq_gt.mpr h3, Nat.compare_eq_gt.mpr (by omega)]

theorem arrayCmp_gt {a b : List UInt8} (h : a.length = b.length) : arrayCmp a b = .gt ↔ num b < num a := by
  rw [arrayCmp_eq_compare a b h, Nat.compare_eq_gt]

theorem arrayCmp_lt {a b : List UInt8} (h : a.length = b.length) : arrayCmp a b = .lt ↔ num a < num b := by
  rw [arrayCmp_eq_compare a b h, Nat.compare_eq_lt]

theorem num_inj {a b : List UInt8} (h : a.length = b.length) (hn : num a = num b) : a = b := by
  induction a generalizing b with
  | nil =>
    cases b with
    | nil => rfl
    | cons y ys => simp at h
  | cons x xs ih =>
    cases b with
    | nil => simp at h
    | cons y ys =>
      have hl : xs.length = ys.length := by simpa using h
      have hxy : x = y := by
        apply UInt8.toNat_inj.mp
        by_contra hne
        rcases Nat.lt_or_gt_of_ne hne with h1 | h1
        · have := num_cons_lt hl (UInt8.lt_iff_toNat_lt.mpr h1); omega
        · have := num_cons_lt hl.symm (UInt8.lt_iff_toNat_lt.mpr h1); omega
      subst hxy
      simp only [num, hl] at hn
      rw [ih hl (by omega)]

theorem arrayCmp_eq {a b : List UInt8} (h : a.length = b.length) : arrayCmp a b = .eq ↔ a = b := by
  rw [arrayCmp_eq_compare a b h, Nat.compare_eq_eq]
  exact ⟨num_inj h, fun e => by rw [e]⟩

theorem num_append (a b : List UInt8) : num (a ++ b) = num a * 256 ^ b.length + num b := by
  induction a with
  | nil => simp [num]
  | cons x xs ih =>
    simp only [List.cons_append, num, ih, List.length_append, Nat.pow_add, Nat.add_mul]
    rw [Nat.mul_assoc]
    omega

/-- A smaller prefix makes a smaller list. -/
theorem num_append_lt {a a' b b' : List UInt8} (hb : b.length = b'.length)
    (h : num a < num a') : num (a ++ b) < num (a' ++ b') := by
  rw [num_append, num_append, hb]
  have h1 := num_lt b
  rw [hb] at h1
  have : (num a + 1) * 256 ^ b'.length ≤ num a' * 256 ^ b'.length := Nat.mul_le_mul_right _ h
  rw [Nat.add_mul] at this
  omega

theorem num_le_of_append {a a' b b' : List UInt8} (hb : b.length = b'.length)
    (h : num (a ++ b) ≤ num (a' ++ b')) : num a ≤ num a' := by
  by_contra hc
  have := num_append_lt hb.symm (Nat.lt_of_not_le hc)
  omega

/-- The number of a board. -/
def gnum (g : Grid) : Nat := num g.toList

theorem gnum_inj {g h : Grid} (e : gnum g = gnum h) : g = h := by
  apply Vector.toList_inj.mp
  exact num_inj (by simp) e

theorem num_lt_of_prefix {a b : List UInt8} (h : a.length = b.length) (i : Nat) (hi : i < a.length)
    (hpre : ∀ j (hj : j < i), a[j]'(by omega) = b[j]'(by omega))
    (hlt : a[i] < b[i]'(by omega)) : num a < num b := by
  induction a generalizing b i with
  | nil => simp at hi
  | cons x xs ih =>
    cases b with
    | nil => simp at h
    | cons y ys =>
      have hl : xs.length = ys.length := by simpa using h
      cases i with
      | zero => exact num_cons_lt hl (by simpa using hlt)
      | succ i =>
        have h0 := hpre 0 (by omega)
        simp only [List.getElem_cons_zero] at h0
        subst h0
        have := ih hl i (by simpa using hi) (fun j hj => by
          have := hpre (j + 1) (by omega)
          simpa using this) (by simpa using hlt)
        simp only [num, hl]
        omega

theorem LexLt.gnum {g h : Grid} (H : LexLt g h) : gnum g < gnum h := by
  obtain ⟨i, h1, h2⟩ := H
  refine num_lt_of_prefix (by simp) i.val (by simp) ?_ ?_
  · intro j hj
    have := h1 ⟨j, by omega⟩ hj
    simpa using this
  · simpa using h2

theorem gnum_lt_iff (g h : Grid) : LexLt g h ↔ gnum g < gnum h := by
  refine ⟨LexLt.gnum, fun H => ?_⟩
  have hne : g ≠ h := by rintro rfl; exact Nat.lt_irrefl _ H
  have hex : ∃ i : Nat, ∃ hi : i < 81, g[i] ≠ h[i] := by
    by_contra hcon
    push Not at hcon
    exact hne (Vector.ext hcon)
  classical
  obtain ⟨hi, hd⟩ := Nat.find_spec hex
  have hpre : ∀ j : Fin 81, j.val < Nat.find hex → g[j] = h[j] := by
    intro j hj
    by_contra hc
    exact Nat.find_min hex hj ⟨j.isLt, hc⟩
  have : g[Nat.find hex] < h[Nat.find hex] ∨ h[Nat.find hex] < g[Nat.find hex] := by
    have h3 : (g[Nat.find hex]).toNat ≠ (h[Nat.find hex]).toNat := fun e => hd (UInt8.toNat_inj.mp e)
    rw [UInt8.lt_iff_toNat_lt, UInt8.lt_iff_toNat_lt]
    omega
  rcases this with h3 | h3
  · exact ⟨⟨_, hi⟩, fun j hj => hpre j hj, h3⟩
  · have : LexLt h g := ⟨⟨_, hi⟩, fun j hj => (hpre j hj).symm, h3⟩
    have := this.gnum
    omega

theorem gnum_le_iff (g h : Grid) : LexLe g h ↔ gnum g ≤ gnum h := by
  unfold LexLe
  rw [gnum_lt_iff]
  constructor
  · rintro (rfl | h')
    · exact Nat.le_refl _
    · exact Nat.le_of_lt h'
  · intro h'
    rcases Nat.lt_or_eq_of_le h' with h1 | h1
    · exact Or.inr h1
    · exact Or.inl (gnum_inj h1)

theorem cmp_eq_compare (g h : Grid) : Sudoku.cmp g h = compare (gnum g) (gnum h) :=
  arrayCmp_eq_compare _ _ (by simp)

end Verif
