import Verif.Proofs.CanonSort

/-!
# `find_minimal_transformation_for_band`
-/
namespace Verif.Canon

open Verif Sudoku

theorem Cand.label_spec {S : Grid} (hS : Solved S) (θ : Cand) (c : Fin 9) :
    relabel (θ.label S) (bandRC (θ.arranged S) 0 c) = UInt8.ofNat (c.val + 1) :=
  labelOf_spec ((θ.good hS).row_inj 0) ((θ.good hS).range 0) c

attribute [local irreducible] Cand.label labelOf

/-- A complete choice agrees with a candidate, except perhaps for the digits. -/
structure Choices.Pre (θ : Cand) (k : Choices) : Prop where
  transposed : k.transposed = θ.transposed
  band : k.band.1 = θ.band
  row : k.row 0 = θ.row
  stack : k.stack = θ.stack
  col : k.col = θ.col

/-- A complete choice agrees with a candidate. -/
structure Matches (S : Grid) (θ : Cand) (k : Choices) : Prop extends Choices.Pre θ k where
  digits : k.digits = θ.label S

theorem matches_cols {θ : Cand} {k : Choices} (h : Choices.Pre θ k) : k.sym.cols = θ.cols := by
  simp only [Choices.sym, Cand.cols, h.stack, h.col]

theorem rows_first {θ : Cand} {k : Choices} (h : Choices.Pre θ k) (r : Fin 3) :
    (k.sym.rows ⟨r.val, by omega⟩).val = 3 * θ.band.val + (perm3 θ.row.1 θ.row.2 r).val := by
  have := lines_apply (perm3 k.band.1 k.band.2) (fun b => perm3 (k.row b).1 (k.row b).2) 0 r
  simp only [Fin.val_zero, Nat.mul_zero, Nat.zero_add] at this
  rw [show k.sym.rows = lines (perm3 k.band.1 k.band.2) (fun b => perm3 (k.row b).1 (k.row b).2) from rfl, this,
    perm3_zero, h.band, h.row]

/-- The first band of the resulting board. -/
theorem act_pre {S : Grid} {θ : Cand} {k : Choices} (h : Choices.Pre θ k) (r : Fin 3) (c : Fin 9) :
    cellRC (act k.sym S) ⟨r.val, by omega⟩ c = relabel k.digits (bandRC (θ.arranged S) r c) := by
  rw [act_eq_map, cellRC_map, cellRC_rearr]
  unfold Cand.arranged
  rw [bandRC_rearr, bandRC_bandOf]
  have e1 : k.sym.digits = k.digits := rfl
  have e2 : k.sym.transposed = θ.transposed := h.transposed
  rw [e1, e2, matches_cols h]
  congr 2
  exact Fin.ext (rows_first h r)

theorem act_first {S : Grid} {θ : Cand} {k : Choices} (h : Matches S θ k) (r : Fin 3) (c : Fin 9) :
    cellRC (act k.sym S) ⟨r.val, by omega⟩ c = relabel (θ.label S) (bandRC (θ.arranged S) r c) := by
  rw [act_pre h.toPre, h.digits]

theorem wellFormed_of_solved {g : Grid} (h : Solved g) : WellFormed g := by
  rw [wellFormed_iff_rc]
  intro r c
  exact (h.rc_range r c).2

theorem gridHead_lt {g : Grid} (h : Solved g) :
    arrayCmp ((g.toList.drop 27).take 27) (g.toList.drop 54) = .gt ↔ cellRC g 6 0 < cellRC g 3 0 := by
  have hl : ((g.toList.drop 27).take 27).length = (g.toList.drop 54).length := by simp
  have h3 : ((g.toList.drop 27).take 27)[0]'(by simp) = cellRC g 3 0 := by simp [cellRC]
  have h6 : (g.toList.drop 54)[0]'(by simp) = cellRC g 6 0 := by simp [cellRC]
  rw [arrayCmp_gt hl]
  constructor
  · intro hn
    by_contra hc
    have hne : cellRC g 3 0 ≠ cellRC g 6 0 := fun e => absurd (h.col_inj e) (by decide)
    have hlt : cellRC g 3 0 < cellRC g 6 0 := by
      rw [UInt8.lt_iff_toNat_lt] at hc ⊢
      have : (cellRC g 3 0).toNat ≠ (cellRC g 6 0).toNat := fun e => hne (UInt8.toNat_inj.mp e)
      omega
    have := num_lt_of_prefix hl 0 (by simp) (fun j hj => absurd hj (by omega)) (by rw [h3, h6]; exact hlt)
    omega
  · intro hlt
    exact num_lt_of_prefix hl.symm 0 (by simp) (fun j hj => absurd hj (by omega)) (by rw [h3, h6]; exact hlt)

theorem lines_mul_chute (β σ : Equiv.Perm (Fin 3)) (π : Fin 3 → Equiv.Perm (Fin 3)) (x : Fin 9) :
    lines β π (chute σ x) = lines (β * σ) (fun j => π (σ j)) x := by
  apply Fin.ext
  have h1 : ∀ (a : Fin 3) (b : Nat), (3 * a.val + b % 3) / 3 = a.val := by intro a b; omega
  have h2 : ∀ (a : Fin 3) (b : Nat), (3 * a.val + b % 3) % 3 = b % 3 := by intro a b; omega
  simp only [lines, chute, Equiv.coe_fn_mk, h1, h2, Fin.eta, Equiv.Perm.mul_apply]

/-- The row permutations inside the bands, before the bands two and three are switched. -/
def rowChoice (r s t : Fin 3 × Fin 2) : Fin 3 → Fin 3 × Fin 2
  | 0 => r
  | 1 => s
  | 2 => t

theorem rows_total (b : Fin 3) (bc : Fin 2) (r s t : Fin 3 × Fin 2) :
    ((chute (swp 0 b) ∘ inner 0 (perm3 r.1 r.2)) ∘ inner 1 (perm3 s.1 s.2)) ∘ inner 2 (perm3 t.1 t.2) ∘
      chute (swp 1 ⟨1 + bc.val, by omega⟩) =
    lines (perm3 b bc) (fun j => perm3 (rowChoice r s t (perm3 0 bc j)).1 (rowChoice r s t (perm3 0 bc j)).2) := by
  have e0 : ⇑(perm3 b 0) = swp 0 b := by revert b; decide +kernel
  have e1 : ⇑(perm3 0 bc) = swp 1 ⟨1 + bc.val, by omega⟩ := by revert bc; decide +kernel
  have e2 : perm3 b 0 * perm3 0 bc = perm3 b bc := by
    have : ∀ (b : Fin 3) (bc : Fin 2), perm3 b 0 * perm3 0 bc = perm3 b bc := by decide +kernel
    exact this b bc
  have h := chute_inner (perm3 b 0) (fun j => perm3 (rowChoice r s t j).1 (rowChoice r s t j).2)
  funext x
  rw [← e2, ← lines_mul_chute (perm3 b 0) (perm3 0 bc) (fun j => perm3 (rowChoice r s t j).1 (rowChoice r s t j).2),
    ← h, e0, e1]
  rfl

theorem rearr_map {n : Nat} (p : Fin n → Fin n) (f : UInt8 → UInt8) (v : Vector UInt8 n) :
    rearr p (v.map f) = (rearr p v).map f := by
  apply Vector.ext
  intro i hi
  simp [rearr]

theorem inner_lines (k : Fin 3) (p : Equiv.Perm (Fin 3)) : inner k p = lines 1 (fun j => if j = k then p else 1) := by
  funext x
  apply Fin.ext
  simp only [inner, lines, Equiv.coe_fn_mk, Equiv.Perm.coe_one, id]
  by_cases h : x.val / 3 = k.val
  · have hk : (⟨x.val / 3, by omega⟩ : Fin 3) = k := Fin.ext h
    rw [if_pos h, if_pos hk]
    simp only [h]
  · have hk : (⟨x.val / 3, by omega⟩ : Fin 3) ≠ k := fun e => h (congrArg Fin.val e)
    rw [if_neg h, if_neg hk]
    simp only [Equiv.Perm.coe_one, id]
    omega

theorem solved_rearr {g : Grid} (h : Solved g) (ρ κ : Equiv.Perm (Fin 9)) (hρ : KeepsChutes ρ) (hκ : KeepsChutes κ) :
    Solved (rearr (cellMap ρ κ) g) := by
  have := solved_act_of ⟨false, ρ, κ, 1, hρ, hκ⟩ h
  have e : act ⟨false, ρ, κ, 1, hρ, hκ⟩ g = rearr (cellMap ρ κ) g := by
    apply grid_ext_rc
    intro r c
    rw [act_rc, cellRC_rearr, relabel_one]
    rfl
  rwa [e] at this

theorem solved_inner {g : Grid} (h : Solved g) (k : Fin 3) (p : Equiv.Perm (Fin 3)) :
    Solved (rearr (cellMap (inner k p) id) g) := by
  rw [inner_lines]
  exact solved_rearr h _ 1 (lines_keeps _ _) KeepsChutes.one

/-- The rows below the first band are sorted by their first entries, and so are the two bands. -/
def SortedBelow (g : Grid) : Prop :=
  cellRC g 3 0 < cellRC g 4 0 ∧ cellRC g 4 0 < cellRC g 5 0 ∧ cellRC g 6 0 < cellRC g 7 0 ∧
    cellRC g 7 0 < cellRC g 8 0 ∧ cellRC g 3 0 < cellRC g 6 0

/-- Sorting the second and third band. -/
theorem sortBoth {g6 : Grid} (s6 : Solved g6) :
    ∃ (s t : Fin 3 × Fin 2) (g7 g8 : Grid),
      sortRows g6 1 = .ok (g7, P3 s.1 s.2) ∧ sortRows g7 2 = .ok (g8, P3 t.1 t.2) ∧ Solved g8 ∧
      g8 = rearr (cellMap (inner 1 (perm3 s.1 s.2) ∘ inner 2 (perm3 t.1 t.2)) id) g6 ∧
      cellRC g8 3 0 < cellRC g8 4 0 ∧ cellRC g8 4 0 < cellRC g8 5 0 ∧ cellRC g8 6 0 < cellRC g8 7 0 ∧
      cellRC g8 7 0 < cellRC g8 8 0 := by
  obtain ⟨s1, s2, e7, hs⟩ := sortRows_eq s6 1
  have s7 : Solved (rearr (cellMap (inner 1 (perm3 s1 s2)) id) g6) := solved_inner s6 1 _
  generalize hg7 : rearr (cellMap (inner 1 (perm3 s1 s2)) id) g6 = g7 at *
  obtain ⟨t1, t2, e8, ht⟩ := sortRows_eq s7 2
  have s8 : Solved (rearr (cellMap (inner 2 (perm3 t1 t2)) id) g7) := solved_inner s7 2 _
  generalize hg8 : rearr (cellMap (inner 2 (perm3 t1 t2)) id) g7 = g8 at *
  simp only at hs ht
  refine ⟨(s1, s2), (t1, t2), g7, g8, e7, e8, s8, ?_, ?_⟩
  · rw [← hg8, ← hg7, rearr_rearr, cellMap_comp]
    rfl
  have w8 : ∀ r, cellRC g8 r 0 = cellRC g7 (inner 2 (perm3 t1 t2) r) 0 := fun r => by rw [← hg8, cellRC_rearr]; rfl
  have w7 : ∀ r, cellRC g7 r 0 = cellRC g6 (inner 1 (perm3 s1 s2) r) 0 := fun r => by rw [← hg7, cellRC_rearr]; rfl
  have i2 : ∀ r : Fin 9, r.val < 6 → inner 2 (perm3 t1 t2) r = r := inner2_low _
  have i1 : ∀ r : Fin 3, inner 1 (perm3 s1 s2) ⟨3 + r.val, by omega⟩ = ⟨3 + (perm3 s1 s2 r).val, by omega⟩ := by
    intro r
    unfold inner
    rw [if_pos (by simp only; have : (1 : Fin 3).val = 1 := rfl; omega)]
    have : (3 + r.val) % 3 = r.val := by omega
    simp only [this, Fin.eta]
    rfl
  have i2' : ∀ r : Fin 3, inner 2 (perm3 t1 t2) ⟨6 + r.val, by omega⟩ = ⟨6 + (perm3 t1 t2 r).val, by omega⟩ := by
    intro r
    unfold inner
    rw [if_pos (by simp only; have : (2 : Fin 3).val = 2 := rfl; omega)]
    have : (6 + r.val) % 3 = r.val := by omega
    simp only [this, Fin.eta]
    rfl
  have v3 : ∀ r : Fin 3, cellRC g8 ⟨3 + r.val, by omega⟩ 0 = cellRC g6 ⟨3 + (perm3 s1 s2 r).val, by omega⟩ 0 := by
    intro r
    rw [w8, i2 _ (by simp only; omega), w7, i1]
  have v6 : ∀ r : Fin 3, cellRC g8 ⟨6 + r.val, by omega⟩ 0 = cellRC g7 ⟨6 + (perm3 t1 t2 r).val, by omega⟩ 0 := by
    intro r
    rw [w8, i2']
  have x3 : cellRC g8 3 0 = _ := v3 0
  have x4 : cellRC g8 4 0 = _ := v3 1
  have x5 : cellRC g8 5 0 = _ := v3 2
  have x6 : cellRC g8 6 0 = _ := v6 0
  have x7 : cellRC g8 7 0 = _ := v6 1
  have x8 : cellRC g8 8 0 = _ := v6 2
  rw [x3, x4, x5, x6, x7, x8]
  exact ⟨hs.1, hs.2, ht.1, ht.2⟩

/-- The last part of `find_minimal_transformation_for_band`. -/
theorem finish_eq {g6 : Grid} (s6 : Solved g6) (band : Fin 3) (transposed : Bool) (rowP stackP : Permutation3)
    (colP : ChuteLinePermutations) (digits : Vector UInt8 9) :
    ∃ (s t : Fin 3 × Fin 2) (bc : Fin 2),
      (let g9 := rearr (cellMap (inner 1 (perm3 s.1 s.2) ∘ inner 2 (perm3 t.1 t.2) ∘
        chute (swp 1 ⟨1 + bc.val, by omega⟩)) id) g6
      let row := fun j => rowChoice (0, 0) s t (perm3 0 bc j)
      SortedBelow g9 ∧
      (do
        let (g, rowPerm2) ← sortRows g6 1
        let (g, rowPerm3) ← sortRows g 2
        let needsBandSwitch := decide (arrayCmp ((g.toList.drop 27).take 27) (g.toList.drop 54) = Ordering.gt)
        let bandChoice2 := if needsBandSwitch then 1 else 0
        let (rowPerm2, rowPerm3) := if needsBandSwitch then (rowPerm3, rowPerm2) else (rowPerm2, rowPerm3)
        let g ← swapBands g 1 (1 + bandChoice2)
        let bp ← Permutation3.fromChoices band bandChoice2
        Res.ok (g, Transformation.mk transposed bp stackP ⟨rowP, rowPerm2, rowPerm3⟩ colP digits)) =
      .ok (g9, Transformation.mk transposed (P3 band bc) stackP
        ⟨rowP, P3 (row 1).1 (row 1).2, P3 (row 2).1 (row 2).2⟩ colP digits)) := by
  obtain ⟨s, t, g7, g8, e7, e8, s8, hg8, a34, a45, a67, a78⟩ := sortBoth s6
  rw [e7, Res.ok_bind]
  simp only
  rw [e8, Res.ok_bind]
  simp only
  have hgt := gridHead_lt s8
  have hcomp : ∀ bc : Fin 2, rearr (cellMap (inner 1 (perm3 s.1 s.2) ∘ inner 2 (perm3 t.1 t.2) ∘
      chute (swp 1 ⟨1 + bc.val, by omega⟩)) id) g6 = rearr (cellMap (chute (swp 1 ⟨1 + bc.val, by omega⟩)) id) g8 := by
    intro bc
    rw [hg8, rearr_rearr, cellMap_comp]
    rfl
  by_cases hsw : cellRC g8 6 0 < cellRC g8 3 0
  · refine ⟨s, t, 1, ?_, ?_⟩
    · rw [hcomp]
      unfold SortedBelow
      simp only [cellRC_rearr]
      exact ⟨a67, a78, a34, a45, hsw⟩
    · rw [hcomp, decide_eq_true (hgt.mpr hsw)]
      simp only [if_true]
      rw [show swapBands g8 1 (1 + 1) = _ from swapBands_eq g8 1 2, Res.ok_bind,
        show Permutation3.fromChoices band.val 1 = _ from fromChoices_eq band 1, Res.ok_bind]
      rfl
  · have h36 : cellRC g8 3 0 < cellRC g8 6 0 := by
      have hne : cellRC g8 3 0 ≠ cellRC g8 6 0 := fun e => absurd (s8.col_inj e) (by decide)
      rw [UInt8.lt_iff_toNat_lt] at hsw ⊢
      have : (cellRC g8 3 0).toNat ≠ (cellRC g8 6 0).toNat := fun e => hne (UInt8.toNat_inj.mp e)
      omega
    refine ⟨s, t, 0, ?_, ?_⟩
    · rw [hcomp]
      unfold SortedBelow
      simp only [cellRC_rearr]
      exact ⟨a34, a45, a67, a78, h36⟩
    · rw [hcomp, decide_eq_false (fun h => hsw (hgt.mp h))]
      simp only [Bool.false_eq_true, if_false]
      rw [show swapBands g8 1 (1 + 0) = _ from swapBands_eq g8 1 1, Res.ok_bind,
        show Permutation3.fromChoices band.val 0 = _ from fromChoices_eq band 0, Res.ok_bind]
      rfl

/-- The board after the first part of `find_minimal_transformation_for_band`. -/
noncomputable def Cand.start (S : Grid) (θ : Cand) : Grid :=
  (rearr (cellMap (chute (swp 0 θ.band) ∘ inner 0 (perm3 θ.row.1 θ.row.2)) θ.cols)
    (flipIf θ.transposed S)).map (relabel (θ.label S))

theorem Cand.start_solved {S : Grid} (hS : Solved S) (θ : Cand) : Solved (θ.start S) := by
  have := solved_act_of ⟨θ.transposed, lines (perm3 θ.band 0) (fun j => if j = 0 then perm3 θ.row.1 θ.row.2 else 1),
    θ.cols, θ.label S, lines_keeps _ _, lines_keeps _ _⟩ hS
  rw [act_eq_map] at this
  simp only at this
  unfold Cand.start
  rw [show chute (swp 0 θ.band) ∘ inner 0 (perm3 θ.row.1 θ.row.2) = _ from funext (firstCols_lines θ.band θ.row)]
  exact this

/-- The complete choice. -/
noncomputable def Cand.choices (S : Grid) (θ : Cand) (s t : Fin 3 × Fin 2) (bc : Fin 2) : Choices where
  transposed := θ.transposed
  band := (θ.band, bc)
  stack := θ.stack
  row := fun j => rowChoice θ.row s t (perm3 0 bc j)
  col := θ.col
  digits := θ.label S

theorem Cand.choices_matches (S : Grid) (θ : Cand) (s t : Fin 3 × Fin 2) (bc : Fin 2) :
    Matches S θ (θ.choices S s t bc) where
  transposed := rfl
  band := rfl
  row := by
    show rowChoice θ.row s t (perm3 0 bc 0) = θ.row
    rw [perm3_zero]
    rfl
  stack := rfl
  col := rfl
  digits := rfl

theorem Cand.act_choices (S : Grid) (θ : Cand) (s t : Fin 3 × Fin 2) (bc : Fin 2) :
    act (θ.choices S s t bc).sym S = rearr (cellMap (inner 1 (perm3 s.1 s.2) ∘ inner 2 (perm3 t.1 t.2) ∘
        chute (swp 1 ⟨1 + bc.val, by omega⟩)) id) (θ.start S) := by
  have hr : ⇑(θ.choices S s t bc).sym.rows = ((chute (swp 0 θ.band) ∘ inner 0 (perm3 θ.row.1 θ.row.2)) ∘
      inner 1 (perm3 s.1 s.2)) ∘ inner 2 (perm3 t.1 t.2) ∘ chute (swp 1 ⟨1 + bc.val, by omega⟩) :=
    (rows_total θ.band bc θ.row s t).symm
  have hc : (θ.choices S s t bc).sym.cols = θ.cols := matches_cols (θ.choices_matches S s t bc).toPre
  rw [act_eq_map, hr, hc]
  unfold Cand.start
  rw [rearr_map, rearr_rearr, cellMap_comp]
  rfl

theorem Cand.normal {S : Grid} (hS : Solved S) (θ : Cand) (hθ : θ.Valid S) {k : Choices} (hm : Matches S θ k)
    (hs : SortedBelow (act k.sym S)) : Normal (act k.sym S) := by
  have f0 : ∀ c, cellRC (act k.sym S) 0 c = _ := act_first hm 0
  have f1 : ∀ c, cellRC (act k.sym S) 1 c = _ := act_first hm 1
  obtain ⟨h1, h2, h3, h4, h5⟩ := hs
  refine ⟨?_, ?_, ?_, h1, h2, h3, h4, h5⟩
  · intro c
    rw [f0]
    exact θ.label_spec hS c
  · rw [f1, ← hθ.1]
    exact θ.label_spec hS 3
  · rw [f1, ← hθ.2]
    exact θ.label_spec hS 4

theorem findMinimal_eq {S : Grid} (hS : Solved S) (θ : Cand) (hθ : θ.Valid S) :
    ∃ k : Choices, Matches S θ k ∧ Normal (act k.sym S) ∧
      findMinimalForBand S (θ.transformation S) = .ok (act k.sym S, k.transformation) := by
  obtain ⟨s, t, bc, hsort, hcode⟩ := finish_eq (θ.start_solved hS) θ.band θ.transposed (P3 θ.row.1 θ.row.2)
    (P3 θ.stack.1 θ.stack.2)
    ⟨P3 (θ.col 0).1 (θ.col 0).2, P3 (θ.col 1).1 (θ.col 1).2, P3 (θ.col 2).1 (θ.col 2).2⟩ (digitVec (θ.label S))
  rw [← θ.act_choices S s t bc] at hsort
  simp only [← θ.act_choices S s t bc] at hcode
  have hm := θ.choices_matches S s t bc
  refine ⟨θ.choices S s t bc, hm, θ.normal hS hθ hm hsort, ?_⟩
  have hne : ∀ j : Fin 3, j ≠ 0 → perm3 0 bc j ≠ 0 := by
    intro j hj e
    exact hj ((perm3 0 bc).injective (e.trans (perm3_zero 0 bc).symm))
  have hrc : ∀ x : Fin 3, x ≠ 0 → rowChoice θ.row s t x = rowChoice (0, 0) s t x := by
    intro x hx
    match x with
    | 0 => exact absurd rfl hx
    | 1 => rfl
    | 2 => rfl
  have hrow1 := hrc _ (hne 1 (by decide))
  have hrow2 := hrc _ (hne 2 (by decide))
  have htr : (θ.choices S s t bc).transformation =
      Transformation.mk θ.transposed (P3 θ.band bc) (P3 θ.stack.1 θ.stack.2)
        ⟨P3 θ.row.1 θ.row.2,
          P3 (rowChoice (0, 0) s t (perm3 0 bc 1)).1 (rowChoice (0, 0) s t (perm3 0 bc 1)).2,
          P3 (rowChoice (0, 0) s t (perm3 0 bc 2)).1 (rowChoice (0, 0) s t (perm3 0 bc 2)).2⟩
        ⟨P3 (θ.col 0).1 (θ.col 0).2, P3 (θ.col 1).1 (θ.col 1).2, P3 (θ.col 2).1 (θ.col 2).2⟩
        (digitVec (θ.label S)) := by
    rw [← hrow1, ← hrow2]
    have h0 : (θ.choices S s t bc).row 0 = θ.row := hm.row
    unfold Choices.transformation
    rw [h0]
    rfl
  rw [htr, ← hcode]
  unfold findMinimalForBand
  have ht : (if (θ.transformation S).transposed then transpose S else Res.ok S) = .ok (flipIf θ.transposed S) :=
    transpose_if _ S
  rw [ht, Res.ok_bind]
  simp only [Cand.transformation]
  rw [show swapBands (flipIf θ.transposed S) 0 θ.band.val = _ from
    swapBands_eq _ 0 θ.band, Res.ok_bind,
    show permute _ (P3 θ.row.1 θ.row.2) 0 swapRows = _ from permute_swapRows _ 0 _ _, Res.ok_bind,
    permute_swapStacks, Res.ok_bind, chuteLines_swapCols, Res.ok_bind]
  rw [rearr_rearr, rearr_rearr, rearr_rearr, cellMap_comp, cellMap_comp, cellMap_comp]
  rw [applyDigitMapping_eq _ _ (wellFormed_rearr (wellFormed_flipIf (wellFormed_of_solved hS) _) _), Res.ok_bind]
  have hstart : Vector.map (relabel (θ.label S))
      (rearr (cellMap (chute (swp 0 θ.band) ∘ inner 0 ⇑(perm3 θ.row.1 θ.row.2) ∘ id ∘ id)
        (id ∘ id ∘ chute ⇑(perm3 θ.stack.1 θ.stack.2) ∘ inner 0 ⇑(perm3 (θ.col 0).1 (θ.col 0).2) ∘
          inner 1 ⇑(perm3 (θ.col 1).1 (θ.col 1).2) ∘ inner 2 ⇑(perm3 (θ.col 2).1 (θ.col 2).2)))
        (flipIf θ.transposed S)) = θ.start S := by
    unfold Cand.start Cand.cols
    rw [← chute_inner]
    rfl
  rw [hstart]

end Verif.Canon
