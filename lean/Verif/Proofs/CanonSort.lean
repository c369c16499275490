import Verif.Proofs.CanonFold

/-!
# Completing the first band to a board: sorting the other rows
-/
namespace Verif.Canon

open Verif Sudoku

theorem minByKey_spec (key : Nat → List UInt8) (n : Nat) (hk : ∀ x, (key x).length = n) (l : List Nat) (best : Nat) :
    (minByKey key l best = best ∨ minByKey key l best ∈ l) ∧
    num (key (minByKey key l best)) ≤ num (key best) ∧
    ∀ x ∈ l, num (key (minByKey key l best)) ≤ num (key x) := by
  induction l generalizing best with
  | nil => simp [minByKey]
  | cons y l ih =>
    unfold minByKey
    have hgt : arrayCmp (key best) (key y) = .gt ↔ num (key y) < num (key best) :=
      arrayCmp_gt (by rw [hk, hk])
    by_cases h : num (key y) < num (key best)
    · rw [if_pos (hgt.mpr h)]
      obtain ⟨h1, h2, h3⟩ := ih y
      refine ⟨?_, by omega, ?_⟩
      · rcases h1 with h1 | h1
        · right; rw [h1]; simp
        · right; simp [h1]
      · intro x hx
        rcases List.mem_cons.mp hx with rfl | hx
        · exact h2
        · exact h3 x hx
    · rw [if_neg (fun hh => h (hgt.mp hh))]
      obtain ⟨h1, h2, h3⟩ := ih best
      refine ⟨?_, h2, ?_⟩
      · rcases h1 with h1 | h1
        · left; exact h1
        · right; simp [h1]
      · intro x hx
        rcases List.mem_cons.mp hx with rfl | hx
        · omega
        · exact h3 x hx

theorem bandRow_length (B : Vector UInt8 27) (r : Fin 3) : (bandRow B r).length = 9 := by
  simp [bandRow]; omega

theorem bandRow_head (B : Vector UInt8 27) (r : Fin 3) :
    (bandRow B r)[0]'(by rw [bandRow_length]; decide) = bandRC B r 0 := by
  simp [bandRow, bandRC]

/-- Rows with different first entries compare by these. -/
theorem bandRow_lt {B : Vector UInt8 27} {r r' : Fin 3} (hne : bandRC B r 0 ≠ bandRC B r' 0)
    (h : num (bandRow B r) ≤ num (bandRow B r')) : bandRC B r 0 < bandRC B r' 0 := by
  by_contra hc
  have hlt : bandRC B r' 0 < bandRC B r 0 := by
    rw [UInt8.lt_iff_toNat_lt] at hc ⊢
    have : (bandRC B r 0).toNat ≠ (bandRC B r' 0).toNat := fun e => hne (UInt8.toNat_inj.mp e)
    omega
  have := num_lt_of_prefix (a := bandRow B r') (b := bandRow B r) (by rw [bandRow_length, bandRow_length]) 0
    (by rw [bandRow_length]; decide) (fun j hj => absurd hj (by omega))
    (by rw [bandRow_head, bandRow_head]; exact hlt)
  omega

theorem putBand_eq (g : Grid) (k : Fin 3) (p : Fin 3 → Fin 3) :
    putBand g k (rearr (bandMap p id) (bandOf g k)) = rearr (cellMap (inner k p) id) g := by
  apply grid_ext_rc
  intro r c
  rw [cellRC_rearr]
  unfold putBand
  rw [cellRC_ofFn]
  by_cases h : r.val / 3 = k.val
  · rw [dif_pos (by simp only; omega)]
    have hi : (9 * r.val + c.val) - 27 * k.val = 9 * (r.val % 3) + c.val := by omega
    simp only [hi]
    have := bandRC_rearr p id (bandOf g k) ⟨r.val % 3, by omega⟩ c
    unfold bandRC at this
    simp only at this
    rw [this]
    have := bandRC_bandOf g k (p ⟨r.val % 3, by omega⟩) c
    unfold bandRC at this
    simp only [id] at this ⊢
    rw [this]
    unfold inner
    rw [if_pos h]
  · rw [dif_neg (by simp only; omega)]
    unfold inner
    rw [if_neg h]
    rfl

theorem minByKey_first (B : Vector UInt8 27) :
    ∃ f : Fin 3, minByKey (bandRow B) [1, 2] 0 = f.val ∧ ∀ x : Fin 3, num (bandRow B f) ≤ num (bandRow B x) := by
  -- keys outside the rows do not matter
  have hcongr : minByKey (bandRow B) [1, 2] 0 =
      minByKey (fun x => if x < 3 then bandRow B x else List.replicate 9 0) [1, 2] 0 := by
    simp [minByKey]
  have hs := minByKey_spec (fun x => if x < 3 then bandRow B x else List.replicate 9 0) 9 (by
    intro x
    split
    · rename_i h
      exact bandRow_length B ⟨x, h⟩
    · simp) [1, 2] 0
  rw [← hcongr] at hs
  obtain ⟨h1, h2, h3⟩ := hs
  have hlt : minByKey (bandRow B) [1, 2] 0 < 3 := by
    simp only [List.mem_cons, List.not_mem_nil, or_false] at h1
    omega
  refine ⟨⟨_, hlt⟩, rfl, ?_⟩
  intro x
  simp only [hlt, if_true] at h2 h3
  match x with
  | 0 => simpa using h2
  | 1 => simpa using h3 1 (by simp)
  | 2 => simpa using h3 2 (by simp)

theorem minByKey_second (B : Vector UInt8 27) :
    ∃ s : Fin 2, minByKey (fun row => bandRow B (row + 1)) [1] 0 = s.val ∧
      ∀ x : Fin 2, num (bandRow B (1 + s.val)) ≤ num (bandRow B (1 + x.val)) := by
  have hcongr : minByKey (fun row => bandRow B (row + 1)) [1] 0 =
      minByKey (fun x => if x < 2 then bandRow B (1 + x) else List.replicate 9 0) [1] 0 := by
    simp [minByKey]
  have hs := minByKey_spec (fun x => if x < 2 then bandRow B (1 + x) else List.replicate 9 0) 9 (by
    intro x
    split
    · rename_i h
      exact bandRow_length B ⟨1 + x, by omega⟩
    · simp) [1] 0
  rw [← hcongr] at hs
  obtain ⟨h1, h2, h3⟩ := hs
  have hlt : minByKey (fun row => bandRow B (row + 1)) [1] 0 < 2 := by
    simp only [List.mem_cons, List.not_mem_nil, or_false] at h1
    omega
  refine ⟨⟨_, hlt⟩, rfl, ?_⟩
  intro x
  simp only [hlt, if_true] at h2 h3
  match x with
  | 0 => simpa using h2
  | 1 => simpa using h3 1 (by simp)

theorem perm3_zero : ∀ (f : Fin 3) (s : Fin 2), perm3 f s 0 = f := by decide +kernel

theorem perm3_one : ∀ (f : Fin 3) (s : Fin 2), perm3 f s 1 = swp 0 f ⟨1 + s.val, by omega⟩ := by decide +kernel

theorem perm3_two : ∀ (f : Fin 3) (s : Fin 2),
    ∃ x : Fin 2, x ≠ s ∧ perm3 f s 2 = swp 0 f ⟨1 + x.val, by omega⟩ := by decide +kernel

theorem sortRows_eq {g : Grid} (hg : Solved g) (k : Fin 3) :
    ∃ (a : Fin 3) (b : Fin 2),
      sortRows g k = .ok (rearr (cellMap (inner k (perm3 a b)) id) g, P3 a b) ∧
      (let w := fun r : Fin 3 => cellRC g ⟨3 * k.val + r.val, by omega⟩ 0
       w (perm3 a b 0) < w (perm3 a b 1) ∧ w (perm3 a b 1) < w (perm3 a b 2)) := by
  obtain ⟨f, hf, hfmin⟩ := minByKey_first (bandOf g k)
  set B' := rearr (bandMap (swp 0 f) id) (bandOf g k) with hB'
  obtain ⟨s, hs, hsmin⟩ := minByKey_second B'
  have hne : ∀ r r' : Fin 3, r ≠ r' → bandRC (bandOf g k) r 0 ≠ bandRC (bandOf g k) r' 0 := by
    intro r r' h e
    rw [bandRC_bandOf, bandRC_bandOf] at e
    have := congrArg Fin.val (hg.col_inj e)
    simp only at this
    exact h (Fin.ext (by omega))
  have hcol : ∀ r : Fin 3, bandRC B' r 0 = bandRC (bandOf g k) (swp 0 f r) 0 := by
    intro r
    rw [hB', bandRC_rearr]; rfl
  have swp_inj : ∀ (f : Fin 3) (r r' : Fin 3), swp 0 f r = swp 0 f r' → r = r' := by decide +kernel
  refine ⟨f, s, ?_, ?_⟩
  · unfold sortRows
    rw [getBand_eq, Res.ok_bind]
    simp only
    rw [hf, show swapRowsInBand (bandOf g k) 0 f.val = _ from swapRowsInBand_eq _ 0 f, Res.ok_bind, ← hB']
    rw [hs, show swapRowsInBand B' 1 (1 + s.val) = _ from swapRowsInBand_eq _ 1 ⟨1 + s.val, by omega⟩, Res.ok_bind,
      fromChoices_eq, Res.ok_bind, hB', rearr_rearr, bandMap_comp, ← perm3_eq, Function.comp_id, putBand_eq]
  · simp only [← bandRC_bandOf]
    have h0 : ∀ x : Fin 3, x ≠ f → bandRC (bandOf g k) f 0 < bandRC (bandOf g k) x 0 := by
      intro x hx
      exact bandRow_lt (hne f x (Ne.symm hx)) (hfmin x)
    have h1 : ∀ x : Fin 2, x ≠ s → bandRC (bandOf g k) (swp 0 f ⟨1 + s.val, by omega⟩) 0 <
        bandRC (bandOf g k) (swp 0 f ⟨1 + x.val, by omega⟩) 0 := by
      intro x hx
      rw [← hcol, ← hcol]
      apply bandRow_lt _ (hsmin x)
      rw [hcol, hcol]
      apply hne
      intro e
      have := congrArg Fin.val (swp_inj _ _ _ e)
      simp only at this
      exact hx (Fin.ext (by omega))
    obtain ⟨x, hx, e2⟩ := perm3_two f s
    constructor
    · rw [perm3_zero]
      apply h0
      intro e
      have e := e.trans (perm3_zero f s).symm
      exact absurd ((perm3 f s).injective e) (by decide)
    · rw [perm3_one, e2]
      exact h1 x hx

end Verif.Canon
