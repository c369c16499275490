import Verif.Proofs.CanonBand

/-!
# The search for the minimal first band as one fold over all candidates
-/
namespace Verif.Canon

open Verif Sudoku

/-- A candidate: transposed, band, first box, row permutation, permutation of the columns of the first box,
second box and its first and second column, permutation of the columns of the last box. -/
abbrev Cand := Bool × Fin 3 × Fin 3 × Fin 6 × Fin 6 × (Fin 2 × Fin 3 × Fin 2) × Fin 6

/-- All candidates in the order of the search. -/
def allCands : List Cand :=
  [false, true] ×ˢ (List.finRange 3 ×ˢ (List.finRange 3 ×ˢ (List.finRange 6 ×ˢ (List.finRange 6 ×ˢ
    (allChoices ×ˢ List.finRange 6)))))

theorem mem_allCands (θ : Cand) : θ ∈ allCands := by
  obtain ⟨u, b, f, rp, cp, c, lp⟩ := θ
  unfold allCands
  simp only [List.mem_product, List.mem_finRange, mem_allChoices, true_and, and_true]
  cases u <;> simp

theorem nodup_allCands : allCands.Nodup := by
  unfold allCands
  refine List.Nodup.product (by decide) ?_
  refine List.Nodup.product (List.nodup_finRange _) ?_
  refine List.Nodup.product (List.nodup_finRange _) ?_
  refine List.Nodup.product (List.nodup_finRange _) ?_
  refine List.Nodup.product (List.nodup_finRange _) ?_
  exact List.Nodup.product nodup_allChoices (List.nodup_finRange _)

def Cand.transposed (θ : Cand) : Bool := θ.1
def Cand.band (θ : Cand) : Fin 3 := θ.2.1
def Cand.row (θ : Cand) : Fin 3 × Fin 2 := six θ.2.2.2.1
def Cand.stack (θ : Cand) : Fin 3 × Fin 2 := (θ.2.2.1, θ.2.2.2.2.2.1.1)
def Cand.col (θ : Cand) : Fin 3 → Fin 3 × Fin 2
  | 0 => six θ.2.2.2.2.1
  | 1 => θ.2.2.2.2.2.1.2
  | 2 => six θ.2.2.2.2.2.2

/-- The order of the columns of a candidate. -/
def Cand.cols (θ : Cand) : Equiv.Perm (Fin 9) :=
  lines (perm3 θ.stack.1 θ.stack.2) (fun k => perm3 (θ.col k).1 (θ.col k).2)

/-- A band of a board. -/
def bandOf (g : Grid) (b : Fin 3) : Vector UInt8 27 := Vector.ofFn (fun i : Fin 27 => g[27 * b.val + i.val])

theorem getBand_eq (g : Grid) (b : Fin 3) : getBand g b = .ok (bandOf g b) := by
  unfold getBand bandOf
  rw [dif_pos (by omega)]

theorem bandRC_bandOf (g : Grid) (b r : Fin 3) (c : Fin 9) :
    bandRC (bandOf g b) r c = cellRC g ⟨3 * b.val + r.val, by omega⟩ c := by
  unfold bandRC bandOf cellRC
  rw [Vector.getElem_ofFn]
  have : 27 * b.val + (9 * r.val + c.val) = 9 * (3 * b.val + r.val) + c.val := by omega
  simp only [this]

/-- The first band of a candidate, before relabelling. -/
def Cand.arranged (S : Grid) (θ : Cand) : Vector UInt8 27 :=
  rearr (bandMap (perm3 θ.row.1 θ.row.2) θ.cols) (bandOf (flipIf θ.transposed S) θ.band)

/-- The second row begins with the fourth and fifth digit of the first row. -/
def Cand.Valid (S : Grid) (θ : Cand) : Prop :=
  bandRC (θ.arranged S) 0 3 = bandRC (θ.arranged S) 1 0 ∧ bandRC (θ.arranged S) 0 4 = bandRC (θ.arranged S) 1 1

instance (S : Grid) (θ : Cand) : Decidable (Cand.Valid S θ) := by unfold Cand.Valid; infer_instance

/-- The relabelling of a candidate. -/
noncomputable def Cand.label (S : Grid) (θ : Cand) : Equiv.Perm (Fin 9) := labelOf (bandRC (θ.arranged S) 0)

noncomputable def Cand.value (S : Grid) (θ : Cand) : Vector UInt8 16 := bandVal (θ.arranged S) (θ.label S)

noncomputable def Cand.transformation (S : Grid) (θ : Cand) : MinBandTransformation where
  band := θ.band
  transposed := θ.transposed
  rowPermutation := P3 θ.row.1 θ.row.2
  stackPermutation := P3 θ.stack.1 θ.stack.2
  colPermutations := ⟨P3 (θ.col 0).1 (θ.col 0).2, P3 (θ.col 1).1 (θ.col 1).2, P3 (θ.col 2).1 (θ.col 2).2⟩
  digitRemapping := digitVec (θ.label S)

/-- Taking a candidate into account, if it is valid. -/
noncomputable def step (S : Grid) (st : BandState) (θ : Cand) : BandState :=
  if θ.Valid S then consider st (θ.value S) (θ.transformation S) else st

theorem foldlM_ok {α β : Type} (f : β → α → Res β) (g : β → α → β) (l : List α)
    (h : ∀ s, ∀ x ∈ l, f s x = .ok (g s x)) (s : β) : l.foldlM f s = .ok (l.foldl g s) := by
  induction l generalizing s with
  | nil => rfl
  | cons x l ih =>
    rw [List.foldlM_cons, h s x (by simp), Res.ok_bind, List.foldl_cons]
    exact ih (fun s y hy => h s y (by simp [hy])) _

theorem foldlM_range_ok {β : Type} (n : Nat) (f : β → Nat → Res β) (g : β → Fin n → β)
    (h : ∀ s, ∀ x : Fin n, f s x.val = .ok (g s x)) (s : β) :
    (List.range n).foldlM f s = .ok ((List.finRange n).foldl g s) := by
  have : List.range n = (List.finRange n).map Fin.val := by simp
  rw [this, List.foldlM_map]
  exact foldlM_ok _ _ _ (fun s x _ => h s x) s

theorem foldl_product {α β γ : Type} (f : γ → α × β → γ) (l : List α) (l' : List β) (s : γ) :
    (l ×ˢ l').foldl f s = l.foldl (fun s a => l'.foldl (fun s b => f s (a, b)) s) s := by
  induction l generalizing s with
  | nil => rfl
  | cons a l ih =>
    rw [List.product_cons, List.foldl_append, List.foldl_cons, ih, List.foldl_map]

theorem inner0_chute : ∀ (p : Fin 3 × Fin 2) (ch : Fin 2) (x : Fin 9),
    inner 0 (perm3 p.1 p.2) (chute (perm3 0 ch) x) = chute (perm3 0 ch) (inner 0 (perm3 p.1 p.2) x) := by
  decide +kernel

theorem swp_perm3 : ∀ (f : Fin 3) (ch : Fin 2) (x : Fin 3), swp 0 f (perm3 0 ch x) = perm3 f ch x := by
  decide +kernel

theorem inner_one (k : Fin 3) : inner k ⇑(1 : Equiv.Perm (Fin 3)) = id := by
  funext x
  apply Fin.ext
  simp only [inner, id]
  split
  · simp only [Equiv.Perm.coe_one, id]; omega
  · rfl

theorem secondCols_inner (ch : Fin 2) (fc : Fin 3) (sc : Fin 2) :
    ⇑(secondCols ch fc sc) = chute (perm3 0 ch) ∘ inner 1 (perm3 fc sc) := by
  unfold secondCols
  rw [← chute_inner]
  simp only [Fin.reduceEq, if_false, if_true, inner_one]
  rfl

theorem cols_eq (θ : Cand) :
    ((chute (swp 0 θ.stack.1) ∘ inner 0 (perm3 (θ.col 0).1 (θ.col 0).2)) ∘
      (secondCols θ.stack.2 (θ.col 1).1 (θ.col 1).2 ∘ inner 2 (perm3 (θ.col 2).1 (θ.col 2).2))) = θ.cols := by
  unfold Cand.cols
  rw [← chute_inner, secondCols_inner]
  funext x
  simp only [Function.comp]
  rw [inner0_chute]
  have h : ∀ x, chute (swp 0 θ.stack.1) (chute (perm3 0 θ.stack.2) x) = chute (perm3 θ.stack.1 θ.stack.2) x := by
    intro x
    rw [← Function.comp_apply (f := chute (swp 0 θ.stack.1)), chute_comp]
    exact congrFun (congrArg chute (funext (swp_perm3 θ.stack.1 θ.stack.2))) x
  rw [h]

theorem goodBand_bandOf {S : Grid} (hS : Solved S) (u : Bool) (b : Fin 3) : GoodBand (bandOf (flipIf u S) b) where
  range r c := by
    rw [bandRC_bandOf, flipIf_rc]
    split
    · exact hS.rc_range _ _
    · exact hS.rc_range _ _
  row_inj r c c' e := by
    rw [bandRC_bandOf, bandRC_bandOf, flipIf_rc, flipIf_rc] at e
    split at e
    · exact hS.col_inj e
    · exact hS.row_inj e
  box_ne r r' c c' hne hc := by
    rw [bandRC_bandOf, bandRC_bandOf, flipIf_rc, flipIf_rc]
    have hr : (3 * b.val + r.val) / 3 = (3 * b.val + r'.val) / 3 := by omega
    have hne' : (⟨3 * b.val + r.val, by omega⟩ : Fin 9) ≠ ⟨3 * b.val + r'.val, by omega⟩ := by
      intro h
      have := congrArg Fin.val h
      simp only at this
      exact hne (Fin.ext (by omega))
    split
    · intro e
      exact ((solved_iff_rc S).mp hS).2 _ _ _ _ (Or.inr hne') (Or.inr (Or.inr ⟨hc, hr⟩)) e
    · exact hS.box_ne hne' hr hc

theorem Cand.good {S : Grid} (hS : Solved S) (θ : Cand) : GoodBand (θ.arranged S) :=
  (goodBand_bandOf hS _ _).rearr _ _ (lines_keeps _ _)

/-- The first box is arranged. -/
def firstArranged (S : Grid) (u : Bool) (b f : Fin 3) (rp cp : Fin 6) : Vector UInt8 27 :=
  rearr (bandMap (perm3 (six rp).1 (six rp).2) (chute (swp 0 f) ∘ inner 0 (perm3 (six cp).1 (six cp).2)))
    (bandOf (flipIf u S) b)

theorem firstCols_lines : ∀ (f : Fin 3) (p : Fin 3 × Fin 2) (x : Fin 9),
    chute (swp 0 f) (inner 0 (perm3 p.1 p.2) x) =
      lines (perm3 f 0) (fun k => if k = 0 then perm3 p.1 p.2 else 1) x := by
  decide +kernel

theorem firstArranged_good {S : Grid} (hS : Solved S) (u : Bool) (b f : Fin 3) (rp cp : Fin 6) :
    GoodBand (firstArranged S u b f rp cp) := by
  unfold firstArranged
  rw [show chute (swp 0 f) ∘ inner 0 (perm3 (six cp).1 (six cp).2) = _ from funext (firstCols_lines f (six cp))]
  exact (goodBand_bandOf hS _ _).rearr _ _ (lines_keeps _ _)

theorem secondBoxFold_eq (S : Grid) (u : Bool) (b f : Fin 3) (rp cp : Fin 6) (c : Fin 2 × Fin 3 × Fin 2)
    (st : BandState) :
    secondBoxFold b u f (P3 (six rp).1 (six rp).2) (P3 (six cp).1 (six cp).2) (firstArranged S u b f rp cp) st c =
      (List.finRange 6).foldl (fun st lp => step S st (u, b, f, rp, cp, c, lp)) st := by
  have harr : ∀ lp : Fin 6, rearr (bandMap id (secondCols c.1 c.2.1 c.2.2 ∘ inner 2 (perm3 (six lp).1 (six lp).2)))
      (firstArranged S u b f rp cp) = Cand.arranged S (u, b, f, rp, cp, c, lp) := by
    intro lp
    unfold firstArranged Cand.arranged
    rw [rearr_rearr, bandMap_comp, ← cols_eq, Function.comp_id]
    rfl
  have hval : ∀ lp : Fin 6, Cand.Valid S (u, b, f, rp, cp, c, lp) ↔ ValidChoice (firstArranged S u b f rp cp) c := by
    intro lp
    unfold Cand.Valid ValidChoice
    rw [← harr]
    have h : ∀ (r : Fin 3) (k : Fin 9), k.val < 6 → bandRC (rearr (bandMap id (secondCols c.1 c.2.1 c.2.2 ∘
        inner 2 (perm3 (six lp).1 (six lp).2))) (firstArranged S u b f rp cp)) r k =
        bandRC (firstArranged S u b f rp cp) r (secondCols c.1 c.2.1 c.2.2 k) := by
      intro r k hk
      rw [bandRC_rearr, Function.comp_apply, inner2_low _ _ hk]
      rfl
    rw [h 0 3 (by decide), h 1 0 (by decide), h 0 4 (by decide), h 1 1 (by decide),
      secondCols_low _ _ _ 0 (by decide), secondCols_low _ _ _ 1 (by decide)]
  unfold secondBoxFold
  by_cases hv : ValidChoice (firstArranged S u b f rp cp) c
  · rw [if_pos hv]
    simp only [harr]
    have : ∀ (st : BandState) (lp : Fin 6), step S st (u, b, f, rp, cp, c, lp) =
        consider st (Cand.value S (u, b, f, rp, cp, c, lp)) (Cand.transformation S (u, b, f, rp, cp, c, lp)) := by
      intro st lp
      unfold step
      rw [if_pos ((hval lp).mpr hv)]
    simp only [this]
    rfl
  · rw [if_neg hv]
    symm
    apply foldl_none
    intro lp _
    unfold step
    rw [if_neg (fun h => hv ((hval lp).mp h))]

theorem findMinlexBand_eq {S : Grid} (hS : Solved S) (u : Bool) (b : Fin 3) (st : BandState) :
    findMinlexBand (flipIf u S) b u st = .ok ((List.finRange 3).foldl (fun st f =>
      (List.finRange 6).foldl (fun st rp => (List.finRange 6).foldl (fun st cp =>
        allChoices.foldl (fun st c => (List.finRange 6).foldl (fun st lp => step S st (u, b, f, rp, cp, c, lp)) st) st)
        st) st) st) := by
  unfold findMinlexBand
  rw [getBand_eq, Res.ok_bind]
  apply foldlM_range_ok
  intro st f
  rw [show swapStackInBand (bandOf (flipIf u S) b) 0 f.val = _ from swapStackInBand_eq _ 0 f, Res.ok_bind]
  apply foldlM_range_ok
  intro st rp
  rw [P3_new, Res.ok_bind, permute_swapRowsInBand, Res.ok_bind]
  apply foldlM_range_ok
  intro st cp
  rw [P3_new, Res.ok_bind, show permute _ (P3 (six cp).1 (six cp).2) 0 swapColsInBand = _ from
    permute_swapColsInBand _ 0 _ _, Res.ok_bind, rearr_rearr, rearr_rearr, bandMap_comp, bandMap_comp]
  simp only [Function.id_comp, Function.comp_id]
  rw [show rearr (bandMap _ _) (bandOf (flipIf u S) b) = firstArranged S u b f rp cp from rfl]
  rw [secondBoxStep_eq (firstArranged_good hS u b f rp cp)]
  refine congrArg Res.ok (congrArg (fun F => allChoices.foldl F st) ?_)
  funext st c
  exact secondBoxFold_eq S u b f rp cp c st

/-- The search is a fold over all candidates. -/
theorem search_eq {S : Grid} (hS : Solved S) (st : BandState) :
    [false, true].foldlM (fun st transp => do
      let g ← (if transp then transpose S else .ok S)
      (List.range 3).foldlM (fun st band => findMinlexBand g band transp st) st) st =
    .ok (allCands.foldl (step S) st) := by
  unfold allCands
  simp only [foldl_product]
  apply foldlM_ok
  intro st u _
  rw [transpose_if, Res.ok_bind]
  apply foldlM_range_ok
  intro st b
  exact findMinlexBand_eq hS u b st

end Verif.Canon
