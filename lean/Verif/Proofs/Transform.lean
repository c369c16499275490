import Verif.Proofs.Equivalence
import Mathlib.Tactic.Ring
import Mathlib.Data.Nat.Factorial.Basic

/-!
# `Transformation::apply` and `Transformation::random`
-/
namespace Verif.Canon

open Verif

theorem cellRC_rearr (ρ κ : Fin 9 → Fin 9) (g : Grid) (r c : Fin 9) :
    cellRC (rearr (cellMap ρ κ) g) r c = cellRC g (ρ r) (κ c) := by
  unfold rearr
  rw [cellRC_ofFn]
  simp only [cellMap, div9, mod9, Fin.eta]
  rfl

theorem cellRC_flip (g : Grid) (r c : Fin 9) : cellRC (rearr flipCell g) r c = cellRC g c r := by
  unfold rearr
  rw [cellRC_ofFn]
  simp only [flipCell, div9, mod9]
  rfl

theorem cellRC_map (f : UInt8 → UInt8) (g : Grid) (r c : Fin 9) : cellRC (g.map f) r c = f (cellRC g r c) := by
  simp [cellRC]

/-- The array of digits of a permutation of the digits. -/
def digitVec (δ : Equiv.Perm (Fin 9)) : Vector UInt8 9 := Vector.ofFn (fun i => UInt8.ofNat ((δ i).val + 1))

theorem lookupDigit_digitVec (δ : Equiv.Perm (Fin 9)) {d : UInt8} (h : d ≠ 0) (h9 : d ≤ 9) :
    lookupDigit (digitVec δ) d = .ok (relabel δ d) := by
  rcases digit_cases d with rfl | ⟨e, rfl⟩ | h'
  · exact absurd rfl h
  · have ht : (UInt8.ofNat (e.val + 1)).toNat = e.val + 1 := by rw [UInt8.toNat_ofNat']; omega
    unfold lookupDigit
    rw [if_neg h, dif_pos (by omega), relabel_of_mem]
    simp only [ht, Nat.add_sub_cancel, digitVec, Vector.getElem_ofFn, Fin.eta]
  · have := UInt8.le_iff_toNat_le.mp h9
    have e : (9 : UInt8).toNat = 9 := rfl
    omega

theorem digitMapping_fold (δ : Equiv.Perm (Fin 9)) (l : List (Fin 81)) (hl : l.Nodup) (g : Grid)
    (hg : WellFormed g) :
    ∃ w : Grid, l.foldlM (fun (g : Grid) (i : Fin 81) =>
      if g[i] = 0 then .ok g
      else do
        let d ← lookupDigit (digitVec δ) g[i]
        Res.ok (g.set i d)) g = .ok w ∧
      ∀ i : Fin 81, w[i] = if i ∈ l then relabel δ g[i] else g[i] := by
  induction l generalizing g with
  | nil => exact ⟨g, rfl, fun i => by simp⟩
  | cons a l ih =>
    have ha : a ∉ l := (List.nodup_cons.mp hl).1
    have hl' := (List.nodup_cons.mp hl).2
    rw [List.foldlM_cons]
    by_cases h0 : g[a] = 0
    · rw [if_pos h0, Res.ok_bind]
      obtain ⟨w, hw, hw'⟩ := ih hl' g hg
      refine ⟨w, hw, fun i => ?_⟩
      rw [hw' i]
      by_cases hi : i = a
      · subst hi
        simp only [ha, if_false, List.mem_cons, true_or, if_true]
        rw [h0]; rfl
      · simp only [List.mem_cons, hi, false_or]
    · rw [if_neg h0, lookupDigit_digitVec δ h0 (hg a), Res.ok_bind, Res.ok_bind]
      have hset : ∀ i : Fin 81, (g.set a (relabel δ g[a]) : Grid)[i] = if i = a then relabel δ g[i] else g[i] := by
        intro i
        by_cases hi : i = a
        · subst hi
          simp
        · rw [if_neg hi]
          show (g.set a.val _ _)[i.val] = g[i.val]
          rw [Vector.getElem_set_ne]
          intro h
          exact hi (Fin.ext h.symm)
      obtain ⟨w, hw, hw'⟩ := ih hl' (g.set a (relabel δ g[a])) (by
        intro i
        rw [hset]
        split
        · exact relabel_le δ (hg i)
        · exact hg i)
      refine ⟨w, hw, fun i => ?_⟩
      rw [hw' i, hset i]
      by_cases hi : i = a
      · subst hi
        simp only [ha, if_false, if_true, List.mem_cons, true_or]
      · simp only [List.mem_cons, hi, false_or, if_false]

theorem applyDigitMapping_eq (δ : Equiv.Perm (Fin 9)) (g : Grid) (hg : WellFormed g) :
    applyDigitMapping (digitVec δ) g = .ok (g.map (relabel δ)) := by
  obtain ⟨w, hw, hw'⟩ := digitMapping_fold δ (List.finRange 81) (List.nodup_finRange 81) g hg
  unfold applyDigitMapping
  rw [hw]
  congr 1
  apply Vector.ext
  intro i hi
  have := hw' ⟨i, hi⟩
  simp only [List.mem_finRange, if_true] at this
  simpa using this

/-- All choices of a transformation, each from its range. -/
structure Choices where
  transposed : Bool
  band : Fin 3 × Fin 2
  stack : Fin 3 × Fin 2
  row : Fin 3 → Fin 3 × Fin 2
  col : Fin 3 → Fin 3 × Fin 2
  digits : Equiv.Perm (Fin 9)

/-- The `Transformation` value with these choices. -/
def Choices.transformation (k : Choices) : Transformation where
  transpose := k.transposed
  bandPermutation := P3 k.band.1 k.band.2
  stackPermutation := P3 k.stack.1 k.stack.2
  rowPermutations := ⟨P3 (k.row 0).1 (k.row 0).2, P3 (k.row 1).1 (k.row 1).2, P3 (k.row 2).1 (k.row 2).2⟩
  colPermutations := ⟨P3 (k.col 0).1 (k.col 0).2, P3 (k.col 1).1 (k.col 1).2, P3 (k.col 2).1 (k.col 2).2⟩
  digitRemapping := digitVec k.digits

/-- The transformation of boards with these choices. -/
def Choices.sym (k : Choices) : Sym where
  transposed := k.transposed
  rows := lines (perm3 k.band.1 k.band.2) (fun b => perm3 (k.row b).1 (k.row b).2)
  cols := lines (perm3 k.stack.1 k.stack.2) (fun b => perm3 (k.col b).1 (k.col b).2)
  digits := k.digits
  rows_ok := lines_keeps _ _
  cols_ok := lines_keeps _ _

theorem chute_inner (β : Equiv.Perm (Fin 3)) (π : Fin 3 → Equiv.Perm (Fin 3)) :
    chute β ∘ (inner 0 (π 0) ∘ inner 1 (π 1) ∘ inner 2 (π 2)) = lines β π := by
  funext x
  obtain ⟨b, i, rfl⟩ : ∃ b i : Fin 3, x = ⟨3 * b.val + i.val, by omega⟩ :=
    ⟨⟨x.val / 3, by omega⟩, ⟨x.val % 3, by omega⟩, Fin.ext (by simp only; omega)⟩
  apply Fin.ext
  rw [lines_apply]
  have h1 : ∀ (a c : Fin 3), (3 * a.val + c.val) / 3 = a.val := by intro a c; omega
  have h2 : ∀ (a c : Fin 3), (3 * a.val + c.val) % 3 = c.val := by intro a c; omega
  have key : ∀ b i : Fin 3, (inner 0 (π 0) ∘ inner 1 (π 1) ∘ inner 2 (π 2))
      (⟨3 * b.val + i.val, by omega⟩ : Fin 9) = ⟨3 * b.val + (π b i).val, by omega⟩ := by
    intro b i
    have hin : ∀ (b k i : Fin 3) (p : Fin 3 → Fin 3), inner k p ⟨3 * b.val + i.val, by omega⟩ =
        if b = k then ⟨3 * b.val + (p i).val, by omega⟩ else ⟨3 * b.val + i.val, by omega⟩ := by
      intro b k i p
      unfold inner
      simp only [h1, h2, Fin.eta]
      by_cases h : b = k
      · subst h; simp
      · rw [if_neg (fun h' => h (Fin.ext h')), if_neg h]
    simp only [Function.comp]
    rw [hin]
    match b with
    | 0 => simp only [Fin.reduceEq, if_false]; rw [hin]; simp only [Fin.reduceEq, if_false]; rw [hin]; simp
    | 1 => simp only [Fin.reduceEq, if_false]; rw [hin]; simp only [if_true]; rw [hin]; simp
    | 2 => simp only [if_true]; rw [hin]; simp only [Fin.reduceEq, if_false]; rw [hin]; simp
  rw [Function.comp_apply, key]
  simp only [chute, h1, h2, Fin.eta]

theorem chuteLines_swapCols (v : Grid) (k : Fin 3 → Fin 3 × Fin 2) :
    (ChuteLinePermutations.mk (P3 (k 0).1 (k 0).2) (P3 (k 1).1 (k 1).2) (P3 (k 2).1 (k 2).2)).apply v swapCols =
      .ok (rearr (cellMap id (inner 0 (perm3 (k 0).1 (k 0).2) ∘ inner 1 (perm3 (k 1).1 (k 1).2) ∘
        inner 2 (perm3 (k 2).1 (k 2).2))) v) := by
  unfold ChuteLinePermutations.apply
  simp only
  rw [show permute v (P3 (k 0).1 (k 0).2) (3 * 0) swapCols = _ from permute_swapCols v 0 _ _, Res.ok_bind,
    show permute _ (P3 (k 1).1 (k 1).2) (3 * 1) swapCols = _ from permute_swapCols _ 1 _ _, Res.ok_bind,
    show permute _ (P3 (k 2).1 (k 2).2) (3 * 2) swapCols = _ from permute_swapCols _ 2 _ _,
    rearr_rearr, rearr_rearr, cellMap_comp, cellMap_comp]
  rfl

theorem chuteLines_swapRows (v : Grid) (k : Fin 3 → Fin 3 × Fin 2) :
    (ChuteLinePermutations.mk (P3 (k 0).1 (k 0).2) (P3 (k 1).1 (k 1).2) (P3 (k 2).1 (k 2).2)).apply v swapRows =
      .ok (rearr (cellMap (inner 0 (perm3 (k 0).1 (k 0).2) ∘ inner 1 (perm3 (k 1).1 (k 1).2) ∘
        inner 2 (perm3 (k 2).1 (k 2).2)) id) v) := by
  unfold ChuteLinePermutations.apply
  simp only
  rw [show permute v (P3 (k 0).1 (k 0).2) (3 * 0) swapRows = _ from permute_swapRows v 0 _ _, Res.ok_bind,
    show permute _ (P3 (k 1).1 (k 1).2) (3 * 1) swapRows = _ from permute_swapRows _ 1 _ _, Res.ok_bind,
    show permute _ (P3 (k 2).1 (k 2).2) (3 * 2) swapRows = _ from permute_swapRows _ 2 _ _,
    rearr_rearr, rearr_rearr, cellMap_comp, cellMap_comp]
  rfl

/-- The board, transposed if `t`. -/
def flipIf (t : Bool) (g : Grid) : Grid := if t then rearr flipCell g else g

theorem flipIf_rc (t : Bool) (g : Grid) (r c : Fin 9) :
    cellRC (flipIf t g) r c = if t then cellRC g c r else cellRC g r c := by
  unfold flipIf
  split
  · exact cellRC_flip g r c
  · rfl

theorem transpose_if (t : Bool) (g : Grid) :
    (if t then transpose g else Res.ok g) = .ok (flipIf t g) := by
  unfold flipIf
  split
  · exact transpose_eq g
  · rfl

theorem wellFormed_rearr {g : Grid} (hg : WellFormed g) (p : Fin 81 → Fin 81) : WellFormed (rearr p g) := by
  intro i
  rw [rearr_get]
  exact hg _

theorem wellFormed_flipIf {g : Grid} (hg : WellFormed g) (t : Bool) : WellFormed (flipIf t g) := by
  unfold flipIf
  split
  · exact wellFormed_rearr hg _
  · exact hg

theorem act_eq_map (T : Sym) (g : Grid) :
    act T g = (rearr (cellMap T.rows T.cols) (flipIf T.transposed g)).map (relabel T.digits) := by
  apply grid_ext_rc
  intro r c
  rw [act_rc, cellRC_map, cellRC_rearr, flipIf_rc]

theorem map_rearr_congr {ρ ρ' κ κ' : Fin 9 → Fin 9} (h1 : ρ = ρ') (h2 : κ = κ') (f : UInt8 → UInt8) (g : Grid) :
    Res.ok ((rearr (cellMap ρ κ) g).map f) = Res.ok ((rearr (cellMap ρ' κ') g).map f) := by
  subst h1 h2; rfl

/-- `Transformation::apply` transforms the board as specified. -/
theorem apply_eq (k : Choices) (g : Grid) (hg : WellFormed g) :
    k.transformation.apply g = .ok (act k.sym g) := by
  unfold Transformation.apply Choices.transformation
  simp only
  rw [transpose_if, Res.ok_bind, permute_swapBands, Res.ok_bind, permute_swapStacks, Res.ok_bind,
    chuteLines_swapCols, Res.ok_bind, chuteLines_swapRows, Res.ok_bind]
  rw [rearr_rearr, rearr_rearr, rearr_rearr, cellMap_comp, cellMap_comp, cellMap_comp]
  rw [applyDigitMapping_eq _ _ (wellFormed_rearr (wellFormed_flipIf hg _) _)]
  rw [act_eq_map]
  refine map_rearr_congr ?_ ?_ _ _
  · exact chute_inner (perm3 k.band.1 k.band.2) (fun b => perm3 (k.row b).1 (k.row b).2)
  · exact chute_inner (perm3 k.stack.1 k.stack.2) (fun b => perm3 (k.col b).1 (k.col b).2)

theorem Choices.sym_bijective : Function.Bijective Choices.sym := by
  constructor
  · intro k k' h
    have h1 := congrArg Sym.transposed h
    have hR : k.sym.rows = k'.sym.rows := congrArg Sym.rows h
    have hC : k.sym.cols = k'.sym.cols := congrArg Sym.cols h
    simp only [Choices.sym] at hR hC
    have h2 := lines_inj hR
    have h3 := lines_inj hC
    have h4 := congrArg Sym.digits h
    have hb := perm3_bijective.1 h2.1
    have hs := perm3_bijective.1 h3.1
    have hr : k.row = k'.row := funext fun b => perm3_bijective.1 (congrFun h2.2 b)
    have hc : k.col = k'.col := funext fun b => perm3_bijective.1 (congrFun h3.2 b)
    cases k; cases k'
    simp_all [Choices.sym]
  · intro T
    obtain ⟨β, π, hr⟩ := exists_lines T.rows_ok
    obtain ⟨σ, κ, hc⟩ := exists_lines T.cols_ok
    obtain ⟨b, hb⟩ := perm3_bijective.2 β
    obtain ⟨s, hs⟩ := perm3_bijective.2 σ
    choose r hr' using fun b => perm3_bijective.2 (π b)
    choose c hc' using fun b => perm3_bijective.2 (κ b)
    refine ⟨⟨T.transposed, b, s, r, c, T.digits⟩, ?_⟩
    apply Sym.ext'
    · rfl
    · rw [hr]
      simp only [Choices.sym]
      simp only at hb hr'
      rw [hb]
      congr 1
      funext b
      exact hr' b
    · rw [hc]
      simp only [Choices.sym]
      simp only at hs hc'
      rw [hs]
      congr 1
      funext b
      exact hc' b
    · rfl

/-! ## Random choices -/

theorem swapAt_digitVec (δ : Equiv.Perm (Fin 9)) (i j : Fin 9) :
    swapAt (digitVec δ) i j = .ok (digitVec (δ * Equiv.swap i j)) := by
  unfold swapAt
  rw [dif_pos i.isLt, dif_pos j.isLt]
  congr 1
  apply Vector.ext
  intro k hk
  rw [Vector.getElem_set, Vector.getElem_set]
  simp only [digitVec, Vector.getElem_ofFn, Equiv.Perm.coe_mul, Function.comp, Fin.eta]
  by_cases h1 : j.val = k
  · subst h1
    simp
  · rw [if_neg h1]
    by_cases h2 : i.val = k
    · subst h2
      simp
    · rw [if_neg h2, Equiv.swap_apply_of_ne_of_ne]
      · intro h; exact h2 (congrArg Fin.val h).symm
      · intro h; exact h1 (congrArg Fin.val h).symm

/-- The loop of `Transformation::random` for `n_choices = n, .., 2`, on permutations. -/
def fy : (n : Nat) → n ≤ 9 → Nat → Equiv.Perm (Fin 9) → Equiv.Perm (Fin 9)
  | 0, _, _, δ => δ
  | 1, _, _, δ => δ
  | n + 2, h, p, δ => fy (n + 1) (by omega) (p / (n + 2))
      (δ * Equiv.swap ⟨n + 1, by omega⟩ ⟨p % (n + 2), by have := Nat.mod_lt p (show n + 2 > 0 by omega); omega⟩)

/-- `[n, n-1, .., 2]`. -/
def downTo2 : Nat → List Nat
  | 0 => []
  | 1 => []
  | n + 2 => (n + 2) :: downTo2 (n + 1)

theorem fy_fold (n : Nat) (hn : n ≤ 9) (p : Nat) (δ : Equiv.Perm (Fin 9)) :
    ∃ q, (downTo2 n).foldlM
      (fun (st : Nat × Vector UInt8 9) nChoices => do
        let num := st.1 % nChoices
        let permutation := st.1 / nChoices
        let digits ← swapAt st.2 (nChoices - 1) num
        Res.ok (permutation, digits))
      (p, digitVec δ) = .ok (q, digitVec (fy n hn p δ)) := by
  induction n generalizing p δ with
  | zero => exact ⟨p, rfl⟩
  | succ n ih =>
    cases n with
    | zero => exact ⟨p, rfl⟩
    | succ n =>
      simp only [downTo2, List.foldlM_cons]
      have hm := Nat.mod_lt p (show n + 2 > 0 by omega)
      rw [show swapAt (digitVec δ) (n + 2 - 1) (p % (n + 2)) = _ from
        swapAt_digitVec δ ⟨n + 1, by omega⟩ ⟨p % (n + 2), by omega⟩, Res.ok_bind, Res.ok_bind]
      exact ih (by omega) _ _

theorem digitVec_one : digitVec 1 = #v[1, 2, 3, 4, 5, 6, 7, 8, 9] := by decide +kernel

theorem randomDigits_eq (p : Nat) : randomDigits p = .ok (digitVec (fy 9 (by omega) p 1)) := by
  unfold randomDigits
  rw [← digitVec_one]
  obtain ⟨q, hq⟩ := fy_fold 9 (by omega) p 1
  rw [show [9, 8, 7, 6, 5, 4, 3, 2] = downTo2 9 from rfl, hq]
  rfl

theorem fy_above (n : Nat) (hn : n ≤ 9) (p : Nat) (δ : Equiv.Perm (Fin 9)) (k : Fin 9) (hk : n ≤ k.val) :
    fy n hn p δ k = δ k := by
  induction n generalizing p δ with
  | zero => rfl
  | succ n ih =>
    cases n with
    | zero => rfl
    | succ n =>
      have hm := Nat.mod_lt p (show n + 2 > 0 by omega)
      unfold fy
      rw [ih (by omega) _ _ (by omega), Equiv.Perm.mul_apply, Equiv.swap_apply_of_ne_of_ne]
      · intro h; have := congrArg Fin.val h; simp only at this; omega
      · intro h; have := congrArg Fin.val h; simp only at this; omega

theorem fy_injective (n : Nat) (hn : n ≤ 9) (p p' : Nat) (δ : Equiv.Perm (Fin 9)) (hp : p < n.factorial)
    (hp' : p' < n.factorial) (h : fy n hn p δ = fy n hn p' δ) : p = p' := by
  induction n generalizing p p' δ with
  | zero => simp [Nat.factorial] at hp hp'; omega
  | succ n ih =>
    cases n with
    | zero => simp [Nat.factorial] at hp hp'; omega
    | succ n =>
      have hm := Nat.mod_lt p (show n + 2 > 0 by omega)
      have hm' := Nat.mod_lt p' (show n + 2 > 0 by omega)
      unfold fy at h
      have h1 := congrArg (fun e : Equiv.Perm (Fin 9) => e ⟨n + 1, by omega⟩) h
      rw [fy_above _ _ _ _ _ (by simp), fy_above _ _ _ _ _ (by simp)] at h1
      simp only [Equiv.Perm.mul_apply, Equiv.swap_apply_left] at h1
      have h2 := congrArg Fin.val (δ.injective h1)
      simp only at h2
      simp only [h2] at h
      have hfac : (n + 1 + 1).factorial = (n + 2) * (n + 1).factorial := Nat.factorial_succ _
      have hq : p / (n + 2) < (n + 1).factorial := by
        rw [Nat.div_lt_iff_lt_mul (by omega), Nat.mul_comm, ← hfac]; exact hp
      have hq' : p' / (n + 2) < (n + 1).factorial := by
        rw [Nat.div_lt_iff_lt_mul (by omega), Nat.mul_comm, ← hfac]; exact hp'
      have h3 := ih (by omega) _ _ _ hq hq' h
      rw [← Nat.div_add_mod p (n + 2), ← Nat.div_add_mod p' (n + 2), h3, h2]

theorem fact9 : (9 : Nat).factorial = 362880 := by decide

/-- The digits drawn: every permutation exactly once. -/
theorem fy_bijective :
    Function.Bijective (fun p : Fin 362880 => fy 9 (by omega) p.val 1) := by
  rw [Fintype.bijective_iff_injective_and_card]
  constructor
  · intro p p' h
    apply Fin.ext
    exact fy_injective 9 (by omega) _ _ 1 (by rw [fact9]; exact p.isLt) (by rw [fact9]; exact p'.isLt) h
  · rw [Fintype.card_fin, Fintype.card_perm, Fintype.card_fin, fact9]

/-- A number below 6 as choices. -/
def six (n : Fin 6) : Fin 3 × Fin 2 := (⟨n.val % 3, by omega⟩, ⟨n.val / 3, by omega⟩)

theorem six_bijective : Function.Bijective six := by
  constructor
  · decide +kernel
  · decide +kernel

theorem P3_new (n : Fin 6) : Permutation3.new n.val = .ok (P3 (six n).1 (six n).2) := by
  unfold Permutation3.new
  simp only [decide_eq_true n.isLt, Res.assert_true, Res.ok_bind]
  rfl

/-- The choices belonging to the random numbers. -/
def Draws.choices (d : Draws) : Choices where
  transposed := d.transpose
  band := six d.band
  stack := six d.stack
  row := fun b => six (match b with | 0 => d.rows.1 | 1 => d.rows.2.1 | 2 => d.rows.2.2)
  col := fun b => six (match b with | 0 => d.cols.1 | 1 => d.cols.2.1 | 2 => d.cols.2.2)
  digits := fy 9 (by omega) d.permutation.val 1

theorem random_eq (d : Draws) : random d = .ok d.choices.transformation := by
  unfold random
  rw [randomDigits_eq, Res.ok_bind, P3_new, Res.ok_bind, P3_new, Res.ok_bind, P3_new, Res.ok_bind, P3_new,
    Res.ok_bind, P3_new, Res.ok_bind, P3_new, Res.ok_bind, P3_new, Res.ok_bind, P3_new, Res.ok_bind]
  rfl

theorem shuffle_eq (d : Draws) (g : Grid) (hg : WellFormed g) : shuffle d g = .ok (act d.choices.sym g) := by
  unfold shuffle
  rw [random_eq, Res.ok_bind, apply_eq _ _ hg]

theorem Draws.choices_bijective : Function.Bijective Draws.choices := by
  constructor
  · intro d d' h
    have h0 := congrArg Choices.transposed h
    have h1 := six_bijective.1 (congrArg Choices.band h)
    have h2 := six_bijective.1 (congrArg Choices.stack h)
    have r0 := six_bijective.1 (congrFun (congrArg Choices.row h) 0)
    have r1 := six_bijective.1 (congrFun (congrArg Choices.row h) 1)
    have r2 := six_bijective.1 (congrFun (congrArg Choices.row h) 2)
    have c0 := six_bijective.1 (congrFun (congrArg Choices.col h) 0)
    have c1 := six_bijective.1 (congrFun (congrArg Choices.col h) 1)
    have c2 := six_bijective.1 (congrFun (congrArg Choices.col h) 2)
    have hd := fy_bijective.1 (congrArg Choices.digits h)
    clear h
    obtain ⟨p, t, b, s, ⟨r0', r1', r2'⟩, ⟨c0', c1', c2'⟩⟩ := d
    obtain ⟨p', t', b', s', ⟨s0', s1', s2'⟩, ⟨e0', e1', e2'⟩⟩ := d'
    simp only [Draws.choices] at *
    subst h0 h1 h2 r0 r1 r2 c0 c1 c2 hd
    rfl
  · rintro ⟨t, b, s, r, c, δ⟩
    obtain ⟨p, hp⟩ := fy_bijective.2 δ
    obtain ⟨b', hb⟩ := six_bijective.2 b
    obtain ⟨s', hs⟩ := six_bijective.2 s
    obtain ⟨r0, hr0⟩ := six_bijective.2 (r 0)
    obtain ⟨r1, hr1⟩ := six_bijective.2 (r 1)
    obtain ⟨r2, hr2⟩ := six_bijective.2 (r 2)
    obtain ⟨c0, hc0⟩ := six_bijective.2 (c 0)
    obtain ⟨c1, hc1⟩ := six_bijective.2 (c 1)
    obtain ⟨c2, hc2⟩ := six_bijective.2 (c 2)
    refine ⟨⟨p, t, b', s', (r0, r1, r2), (c0, c1, c2)⟩, ?_⟩
    simp only [Draws.choices, Choices.mk.injEq, true_and]
    refine ⟨hb, hs, ?_, ?_, hp⟩
    · funext b
      match b with
      | 0 => exact hr0
      | 1 => exact hr1
      | 2 => exact hr2
    · funext b
      match b with
      | 0 => exact hc0
      | 1 => exact hc1
      | 2 => exact hc2

/-- The random numbers as a product. -/
def Draws.equivProd : Draws ≃ Fin 362880 × Bool × Fin 6 × Fin 6 × (Fin 6 × Fin 6 × Fin 6) × (Fin 6 × Fin 6 × Fin 6) where
  toFun d := (d.permutation, d.transpose, d.band, d.stack, d.rows, d.cols)
  invFun p := ⟨p.1, p.2.1, p.2.2.1, p.2.2.2.1, p.2.2.2.2.1, p.2.2.2.2.2⟩
  left_inv _ := rfl
  right_inv _ := rfl

theorem card_draws : Nat.card Draws = 1218998108160 := by
  have hf : ∀ n : Nat, Nat.card (Fin n) = n := fun n => by rw [Nat.card_eq_fintype_card, Fintype.card_fin]
  have hb : Nat.card Bool = 2 := by rw [Nat.card_eq_fintype_card, Fintype.card_bool]
  rw [Nat.card_congr Draws.equivProd]
  simp only [Nat.card_prod, hf, hb]

theorem draws_sym_bijective : Function.Bijective (fun d : Draws => d.choices.sym) :=
  Choices.sym_bijective.comp Draws.choices_bijective

theorem card_sym : Nat.card Sym = 1218998108160 := by
  rw [← Nat.card_congr (Equiv.ofBijective _ draws_sym_bijective), card_draws]

end Verif.Canon
