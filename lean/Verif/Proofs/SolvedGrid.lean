import Verif.Spec.Board
import Mathlib.Data.Fintype.EquivFin

/-! Every digit occurs in every house of a solved grid. -/
namespace Verif

theorem Solved.digit {t : Grid} (h : Solved t) (c : Fin 81) : ∃ d : Fin 9, t[c].toNat = d.val + 1 := by
  obtain ⟨h1, h2⟩ := h.1 c
  have h1' : 1 ≤ t[c].toNat := h1
  have h2' : t[c].toNat ≤ 9 := h2
  exact ⟨⟨t[c].toNat - 1, by omega⟩, by simp only; omega⟩

theorem Solved.inj {t : Grid} (h : Solved t) {c c' : Fin 81} (hs : SameHouse c c')
    (he : t[c].toNat = t[c'].toNat) : c = c' := by
  by_contra hne
  exact h.2 c c' hne hs (UInt8.toNat_inj.1 he)

theorem Solved.exists_in {t : Grid} (h : Solved t) (f : Fin 9 → Fin 81) (hf : Function.Injective f)
    (hs : ∀ i j, SameHouse (f i) (f j)) (d : Fin 9) : ∃ j, t[f j].toNat = d.val + 1 := by
  choose g hg using fun j => h.digit (f j)
  have hinj : Function.Injective g := by
    intro i j hij
    apply hf
    apply h.inj (hs i j)
    rw [hg, hg, hij]
  obtain ⟨j, hj⟩ := (Finite.injective_iff_surjective.1 hinj) d
  exact ⟨j, by rw [hg, hj]⟩

theorem Solved.exists_row {t : Grid} (h : Solved t) (r : Fin 9) (d : Fin 9) :
    ∃ c : Fin 81, c.val / 9 = r.val ∧ t[c].toNat = d.val + 1 := by
  obtain ⟨j, hj⟩ := h.exists_in (fun j => ⟨9 * r.val + j.val, by omega⟩)
    (by intro i j hij; simp only [Fin.mk.injEq] at hij; exact Fin.ext (by omega))
    (by intro i j; left; simp only [rowOf]; omega) d
  exact ⟨_, by simp only; omega, hj⟩

theorem Solved.exists_col {t : Grid} (h : Solved t) (k : Fin 9) (d : Fin 9) :
    ∃ c : Fin 81, c.val % 9 = k.val ∧ t[c].toNat = d.val + 1 := by
  obtain ⟨j, hj⟩ := h.exists_in (fun j => ⟨9 * j.val + k.val, by omega⟩)
    (by intro i j hij; simp only [Fin.mk.injEq] at hij; exact Fin.ext (by omega))
    (by intro i j; right; left; simp only [colOf]; omega) d
  exact ⟨_, by simp only; omega, hj⟩

theorem Solved.exists_block {t : Grid} (h : Solved t) (k : Fin 9) (d : Fin 9) :
    ∃ c : Fin 81, blockOf c = k.val ∧ t[c].toNat = d.val + 1 := by
  have hb : ∀ j : Fin 9, blockOf ((k.val / 3 * 3 + j.val / 3) * 9 + (k.val % 3 * 3 + j.val % 3)) = k.val := by
    intro j
    have e1 : ((k.val / 3 * 3 + j.val / 3) * 9 + (k.val % 3 * 3 + j.val % 3)) / 9 = k.val / 3 * 3 + j.val / 3 := by omega
    have e2 : ((k.val / 3 * 3 + j.val / 3) * 9 + (k.val % 3 * 3 + j.val % 3)) % 9 = k.val % 3 * 3 + j.val % 3 := by omega
    simp only [blockOf, rowOf, colOf, e1, e2]
    omega
  obtain ⟨j, hj⟩ := h.exists_in
    (fun j => ⟨(k.val / 3 * 3 + j.val / 3) * 9 + (k.val % 3 * 3 + j.val % 3), by omega⟩)
    (by intro i j hij; simp only [Fin.mk.injEq] at hij; exact Fin.ext (by omega))
    (by intro i j; right; right; simp only [hb]) d
  exact ⟨_, hb j, hj⟩

end Verif
