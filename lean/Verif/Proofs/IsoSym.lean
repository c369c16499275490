import Verif.Spec.Moved
import Verif.Spec.History
import Verif.Proofs.Iso

/-!
# The transformations of the board map houses to houses
-/
namespace Verif.Strat

open Verif

variable (T : Sym)

theorem act_source (g : Grid) (i : Fin 81) : (act T g)[i] = relabel T.digits g[source T i] := by
  unfold act source cellRC
  simp only [Fin.getElem_fin, Vector.getElem_ofFn]
  split <;> rfl

theorem source_row (i : Fin 81) : rowOf (source T i) =
    if T.transposed then (T.cols ⟨colOf i, by unfold colOf; omega⟩).val else (T.rows ⟨rowOf i, by unfold rowOf; omega⟩).val := by
  unfold source rowOf colOf
  cases T.transposed <;> simp only [if_true, Bool.false_eq_true, if_false] <;> omega

theorem source_col (i : Fin 81) : colOf (source T i) =
    if T.transposed then (T.rows ⟨rowOf i, by unfold rowOf; omega⟩).val else (T.cols ⟨colOf i, by unfold colOf; omega⟩).val := by
  unfold source rowOf colOf
  cases T.transposed <;> simp only [if_true, Bool.false_eq_true, if_false] <;> omega

theorem cell_ext {i j : Fin 81} (h1 : rowOf i = rowOf j) (h2 : colOf i = colOf j) : i = j := by
  unfold rowOf at h1
  unfold colOf at h2
  omega

theorem source_inj : Function.Injective (source T) := by
  intro i j e
  have h1 := source_row T i
  have h2 := source_col T i
  rw [e, source_row] at h1
  rw [e, source_col] at h2
  split at h1 <;> rename_i ht
  · rw [if_pos ht, if_pos ht] at h2
    have h1 := congrArg Fin.val (T.cols.injective (Fin.ext h1))
    have h2 := congrArg Fin.val (T.rows.injective (Fin.ext h2))
    exact (cell_ext h2 h1).symm
  · rw [if_neg ht, if_neg ht] at h2
    have h1 := congrArg Fin.val (T.rows.injective (Fin.ext h1))
    have h2 := congrArg Fin.val (T.cols.injective (Fin.ext h2))
    exact (cell_ext h1 h2).symm

/-- The house that comes to a house. -/
def sourceHouse (h : Fin 27) : Fin 27 :=
  if h9 : h.val < 9 then
    (if T.transposed then ⟨9 + (T.rows ⟨h.val, h9⟩).val, by omega⟩ else ⟨(T.rows ⟨h.val, h9⟩).val, by omega⟩)
  else if h18 : h.val < 18 then
    (if T.transposed then ⟨(T.cols ⟨h.val - 9, by omega⟩).val, by omega⟩ else ⟨9 + (T.cols ⟨h.val - 9, by omega⟩).val, by omega⟩)
  else
    (if T.transposed then ⟨18 + (T.cols ⟨(h.val - 18) % 3 * 3, by omega⟩).val / 3 * 3 + (T.rows ⟨(h.val - 18) / 3 * 3, by omega⟩).val / 3, by omega⟩
      else ⟨18 + (T.rows ⟨(h.val - 18) / 3 * 3, by omega⟩).val / 3 * 3 + (T.cols ⟨(h.val - 18) % 3 * 3, by omega⟩).val / 3, by omega⟩)

theorem sourceHouse_spec (h : Fin 27) (c : Fin 81) :
    Pattern.InHouse (sourceHouse T h) (source T c) ↔ Pattern.InHouse h c := by
  have hr : rowOf c < 9 := by unfold rowOf; omega
  have hc : colOf c < 9 := by unfold colOf; omega
  unfold sourceHouse
  by_cases h9 : h.val < 9
  · have key : (T.rows ⟨rowOf c, hr⟩).val = (T.rows ⟨h.val, h9⟩).val ↔ rowOf c = h.val := by
      rw [← Fin.ext_iff, EmbeddingLike.apply_eq_iff_eq, Fin.mk.injEq]
    rw [dif_pos h9]
    unfold Pattern.InHouse
    rw [if_pos h9]
    split <;> rename_i ht
    · rw [if_neg (by simp), if_pos (by simp only; omega), source_col, if_pos ht, ← key]
      simp
    · rw [if_pos (by simp), source_row, if_neg ht, ← key]
  · rw [dif_neg h9]
    by_cases h18 : h.val < 18
    · have key : (T.cols ⟨colOf c, hc⟩).val = (T.cols ⟨h.val - 9, by omega⟩).val ↔ colOf c = h.val - 9 := by
        rw [← Fin.ext_iff, EmbeddingLike.apply_eq_iff_eq, Fin.mk.injEq]
      rw [dif_pos h18]
      unfold Pattern.InHouse
      rw [if_neg h9, if_pos h18]
      split <;> rename_i ht
      · rw [if_pos (by simp), source_row, if_pos ht, ← key]
      · rw [if_neg (by simp), if_pos (by simp only; omega), source_col, if_neg ht, ← key]
        simp
    · have hlt := h.isLt
      have k1 := T.rows_ok.iff ⟨rowOf c, hr⟩ ⟨(h.val - 18) / 3 * 3, by omega⟩
      have k2 := T.cols_ok.iff ⟨colOf c, hc⟩ ⟨(h.val - 18) % 3 * 3, by omega⟩
      simp only at k1 k2
      have b1 := (T.rows ⟨rowOf c, hr⟩).isLt
      have b2 := (T.cols ⟨colOf c, hc⟩).isLt
      have b3 := (T.rows ⟨(h.val - 18) / 3 * 3, by omega⟩).isLt
      have b4 := (T.cols ⟨(h.val - 18) % 3 * 3, by omega⟩).isLt
      rw [dif_neg h18]
      unfold Pattern.InHouse
      rw [if_neg h9, if_neg h18]
      have bl : ∀ i, blockOf i = rowOf i / 3 * 3 + colOf i / 3 := fun _ => rfl
      split <;> rename_i ht
      · rw [if_neg (by simp only; omega), if_neg (by simp only; omega), bl, bl, source_row, source_col, if_pos ht, if_pos ht]
        simp only
        omega
      · rw [if_neg (by simp only; omega), if_neg (by simp only; omega), bl, bl, source_row, source_col, if_neg ht, if_neg ht]
        simp only
        omega

/-- From the transformed board to the original. -/
noncomputable def Iso.ofSym : Iso where
  cell := Equiv.ofBijective (source T) (Finite.injective_iff_bijective.mp (source_inj T))
  digit := T.digits.symm
  house := sourceHouse T
  inHouse := sourceHouse_spec T
  flip := T.transposed
  row h h9 := by
    unfold sourceHouse
    rw [dif_pos h9]
    cases T.transposed <;> simp <;> omega
  col h h9 h18 := by
    unfold sourceHouse
    rw [dif_neg (by omega), dif_pos h18]
    cases T.transposed <;> simp <;> omega
  block h h18 := by
    unfold sourceHouse
    rw [dif_neg (by omega), dif_neg (by omega)]
    cases T.transposed <;> simp only [if_true, Bool.false_eq_true, if_false] <;> omega

theorem Iso.ofSym_cell (c : Fin 81) : (Iso.ofSym T).cell c = source T c := rfl

theorem Iso.ofSym_digit (d : Digit) : (Iso.ofSym T).digit d = T.digits.symm d := rfl

theorem source_inv (c : Fin 81) : source T (source T.inv c) = c := by
  refine cell_ext ?_ ?_
  · rw [source_row]
    have h1 := source_row T.inv c
    have h2 := source_col T.inv c
    cases ht : T.transposed <;> simp only [Sym.inv, ht, if_true, Bool.false_eq_true, if_false] at h1 h2 ⊢
    · simp [h1]
    · simp [h2]
  · rw [source_col]
    have h1 := source_row T.inv c
    have h2 := source_col T.inv c
    cases ht : T.transposed <;> simp only [Sym.inv, ht, if_true, Bool.false_eq_true, if_false] at h1 h2 ⊢
    · simp [h2]
    · simp [h1]

theorem inv_source (c : Fin 81) : source T.inv (source T c) = c :=
  source_inj T (source_inv T _)

theorem moved_inv (X : Fin 81 → Digit → Prop) : moved T.inv (moved T X) = X := by
  funext c d
  unfold moved
  rw [source_inv]
  congr 1
  exact T.digits.symm_apply_apply d

theorem relabel_get (d : Digit) : relabel T.digits d.get = Digit.get (T.digits d) := relabel_of_mem _ d

theorem dig_act {t : Grid} (ht : Solved t) (c : Fin 81) : dig (act T t) c = T.digits (dig t (source T c)) := by
  refine dig_eq ((solved_act T t).mpr ht) ?_
  rw [act_source, dig_spec ht, relabel_get]

theorem solutionOf_act {g t : Grid} {X : Fin 81 → Digit → Prop} (ht : SolutionOf g X t) :
    SolutionOf (act T g) (moved T X) (act T t) := by
  refine ⟨(isSolution_act T g t).mpr ht.1, fun c d hx hd => ?_⟩
  rw [act_source, dig_spec ht.1.1, relabel_get] at hd
  have := Digit.get_inj hd
  refine ht.2 _ _ hx ?_
  rw [dig_spec ht.1.1, ← this, Equiv.symm_apply_apply]

end Verif.Strat
