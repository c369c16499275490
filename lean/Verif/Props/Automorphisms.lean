import Mathlib.GroupTheory.GroupAction.Quotient
import Verif.Proofs.Confluence
import Verif.Proofs.IsoSym
import Verif.Props.Uniform

/-!
# C84: a sudoku has at most 648 automorphisms

A *frame* is a box of the board, the order in which its three rows and its three columns are read, and which of the two is read
first.  There are `2 · 18 · 18 = 648` frames.  A transformation that maps a completed grid to itself and a frame to itself
changes nothing: the box of the frame has all nine digits, so no digit is relabelled; then no row moves, because a column of the
frame has different digits in different rows; and no column moves.  So the automorphisms of a completed grid act freely on the
648 frames, and their number divides 648.
-/
namespace Verif.Props

open Verif Verif.Canon Verif.Strat

/-- The three rows of a band (or columns of a stack) in some order. -/
private def Line : Type :=
  {f : Fin 3 → Fin 9 // (∀ i j, f i = f j → i = j) ∧ ∀ i j, (f i).val / 3 = (f j).val / 3}

private instance : DecidableEq Line := inferInstanceAs (DecidableEq {_f : Fin 3 → Fin 9 // _})
private instance : Fintype Line := inferInstanceAs (Fintype {_f : Fin 3 → Fin 9 // _})

private theorem card_line : Fintype.card Line = 18 := by decide +kernel

private def Line.move (p : Equiv.Perm (Fin 9)) (hp : KeepsChutes p) (f : Line) : Line :=
  ⟨fun i => p (f.1 i), fun i j h => f.2.1 i j (p.injective h), fun i j => hp _ _ (f.2.2 i j)⟩

private abbrev Frame : Type := Bool × Line × Line

private theorem card_frame : Fintype.card Frame = 648 := by
  rw [Fintype.card_prod, Fintype.card_prod, card_line, Fintype.card_bool]

/-- Where a transformation takes a frame from. -/
private def from' (U : Sym) (x : Frame) : Frame :=
  if x.1 then (!U.transposed, x.2.1.move U.cols U.cols_ok, x.2.2.move U.rows U.rows_ok)
  else (U.transposed, x.2.1.move U.rows U.rows_ok, x.2.2.move U.cols U.cols_ok)

private theorem from_one (x : Frame) : from' Sym.one x = x := by
  obtain ⟨t, f, h⟩ := x
  cases t <;> rfl

private theorem from_after (T U : Sym) (x : Frame) : from' (T.after U) x = from' U (from' T x) := by
  obtain ⟨t, f, h⟩ := x
  obtain ⟨tT, rT, cT, dT, hr, hc⟩ := T
  obtain ⟨tU, rU, cU, dU, hr', hc'⟩ := U
  cases t <;> cases tT <;> cases tU <;> rfl

private def at' (r c : Fin 9) : Fin 81 := ⟨9 * r.val + c.val, by omega⟩

/-- The digits of three rows of a band in three columns of a stack are all nine digits. -/
private theorem box_surj {g : Grid} (hg : Solved g) (f h : Line) (d : Digit) :
    ∃ i j : Fin 3, dig g (at' (f.1 i) (h.1 j)) = d := by
  let m : Fin 3 × Fin 3 → Fin 9 := fun x => dig g (at' (f.1 x.1) (h.1 x.2))
  have hm : Function.Injective m := by
    rintro ⟨i, j⟩ ⟨i', j'⟩ e
    have hi := f.2.2 i i'
    have hj := h.2.2 j j'
    have e := dig_unique hg (Or.inr (Or.inr ?_)) e
    · have e := congrArg Fin.val e
      simp only [at'] at e
      have h1 : f.1 i = f.1 i' := Fin.ext (by omega)
      have h2 : h.1 j = h.1 j' := Fin.ext (by omega)
      rw [f.2.1 _ _ h1, h.2.1 _ _ h2]
    · simp only [at', blockOf, rowOf, colOf]
      omega
  have hs : Function.Bijective m :=
    (Fintype.bijective_iff_injective_and_card m).mpr ⟨hm, by simp⟩
  obtain ⟨⟨i, j⟩, hx⟩ := hs.2 d
  exact ⟨i, j, hx⟩

/-- An automorphism of a completed grid that does not transpose and fixes the lines of a box changes nothing. -/
private theorem eq_one {g : Grid} (hg : Solved g) {U : Sym} (hU : act U g = g) (ht : U.transposed = false) (f h : Line)
    (hf : f.move U.rows U.rows_ok = f) (hh : h.move U.cols U.cols_ok = h) : U = Sym.one := by
  have hr : ∀ i, U.rows (f.1 i) = f.1 i := fun i => congrFun (congrArg Subtype.val hf) i
  have hc : ∀ j, U.cols (h.1 j) = h.1 j := fun j => congrFun (congrArg Subtype.val hh) j
  have key : ∀ r c : Fin 9, dig g (at' r c)
      = U.digits (dig g (at' (U.rows r) (U.cols c))) := by
    intro r c
    have e := dig_act U hg (at' r c)
    rw [hU] at e
    rw [e]
    congr 2
    refine cell_ext ?_ ?_
    · rw [source_row, ht]
      simp only [at', rowOf, colOf, Bool.false_eq_true, if_false]
      rw [show (⟨(9 * r.val + c.val) / 9, by omega⟩ : Fin 9) = r from Fin.ext (by simp only; omega)]
      omega
    · rw [source_col, ht]
      simp only [at', rowOf, colOf, Bool.false_eq_true, if_false]
      rw [show (⟨(9 * r.val + c.val) % 9, by omega⟩ : Fin 9) = c from Fin.ext (by simp only; omega)]
      omega
  have hd : ∀ d, U.digits d = d := by
    intro d
    obtain ⟨i, j, hij⟩ := box_surj hg f h d
    have e := key (f.1 i) (h.1 j)
    rw [hr, hc, hij] at e
    exact e.symm
  have hrows : ∀ r, U.rows r = r := by
    intro r
    have e := key r (h.1 0)
    rw [hd, hc] at e
    have e := congrArg Fin.val (dig_unique hg (Or.inr (Or.inl (by simp only [at', colOf]; omega))) e)
    simp only [at'] at e
    exact Fin.ext (by omega)
  have hcols : ∀ c, U.cols c = c := by
    intro c
    have e := key (f.1 0) c
    rw [hd, hr] at e
    have e := congrArg Fin.val (dig_unique hg (Or.inl (by simp only [at', rowOf]; omega)) e)
    simp only [at'] at e
    exact Fin.ext (by omega)
  exact Sym.ext' ht (Equiv.ext hrows) (Equiv.ext hcols) (Equiv.ext hd)

private theorem free {g : Grid} (hg : Solved g) {U : Sym} (hU : act U g = g) {x : Frame} (hx : from' U x = x) : U = Sym.one := by
  obtain ⟨t, f, h⟩ := x
  cases t
  · simp only [from', Bool.false_eq_true, if_false, Prod.mk.injEq] at hx
    exact eq_one hg hU hx.1 f h hx.2.1 hx.2.2
  · simp only [from', if_true, Prod.mk.injEq, Bool.not_eq_true'] at hx
    exact eq_one hg hU hx.1 h f hx.2.2 hx.2.1

/-- The automorphisms of a sudoku, as a group. -/
private abbrev autGroup (g : Grid) : Group {T : Sym // act T g = g} where
  mul T U := ⟨T.1.after U.1, by rw [act_after, U.2, T.2]⟩
  mul_assoc _ _ _ := Subtype.ext (Sym.after_assoc _ _ _)
  one := ⟨Sym.one, act_one g⟩
  one_mul _ := Subtype.ext (Sym.one_after _)
  mul_one _ := Subtype.ext (Sym.after_one _)
  inv T := ⟨T.1.inv, by have := act_inv_act T.1 g; rwa [T.2] at this⟩
  inv_mul_cancel _ := Subtype.ext (Sym.inv_after _)

attribute [local instance] autGroup

private theorem inv_of_after (T U : Sym) : (T.after U).inv = U.inv.after T.inv := by
  have h : (U.inv.after T.inv).after (T.after U) = Sym.one := by
    rw [Sym.after_assoc, ← Sym.after_assoc T.inv, Sym.inv_after, Sym.one_after, Sym.inv_after]
  have h := congrArg (fun V => V.after (T.after U).inv) h
  simp only [Sym.after_assoc, Sym.one_after] at h
  rw [← h, ← Sym.after_assoc T U, Sym.after_inv, Sym.after_one]

private abbrev frameAction (g : Grid) : MulAction {T : Sym // act T g = g} Frame where
  smul T x := from' T.1.inv x
  one_smul x := by
    show from' Sym.one.inv x = x
    rw [show Sym.one.inv = Sym.one from by rw [← Sym.after_one Sym.one.inv, Sym.inv_after], from_one]
  mul_smul T U x := by
    show from' (T.1.after U.1).inv x = from' T.1.inv (from' U.1.inv x)
    rw [inv_of_after, from_after]

attribute [local instance] frameAction

private theorem card_aut (g : Grid) : Set.ncard {T : Sym | act T g = g} = Nat.card {T : Sym // act T g = g} :=
  (Nat.card_coe_set_eq {T : Sym | act T g = g}).symm

/-- **C84**: the number of transformations that map a completed grid to itself divides 648. -/
theorem C84_completed (g : Grid) (hg : Solved g) : Set.ncard {T : Sym | act T g = g} ∣ 648 := by
  have hs : ∀ x : Frame, MulAction.stabilizer {T : Sym // act T g = g} x = ⊥ := by
    intro x
    rw [eq_bot_iff]
    rintro ⟨U, hU⟩ hx
    have hx : from' U.inv x = x := hx
    have hx : from' U x = x := by
      have e := congrArg (from' U) hx
      rw [← from_after, Sym.inv_after, from_one] at e
      exact e.symm
    exact Subtype.ext (free hg hU hx)
  have h := Nat.card_congr (MulAction.selfEquivOrbitsQuotientProd hs)
  rw [Nat.card_eq_fintype_card (α := Frame), card_frame, Nat.card_prod] at h
  rw [h]
  rw [card_aut]
  exact Dvd.intro_left _ rfl

/-- **C84**: the count that `canonicalized` returns divides 648, so it is at most 648.  This is for all sudokus for which it
returns one, completed or not. -/
theorem C84_count (g q : Grid) (n : Nat) (hg : WellFormed g) (fuel : Nat) (hf : 800 ≤ fuel)
    (hq : canonicalized fuel g = .ok (some (q, n))) : n ∣ 648 ∧ 1 ≤ n ∧ n ≤ 648 := by
  obtain ⟨s, k, hs, -, -, -, -, -, hn⟩ := canonicalized_some hg hf hq
  have h := C84_completed s hs.1
  rw [← hn] at h
  exact ⟨h, Nat.pos_of_dvd_of_pos h (by decide), Nat.le_of_dvd (by decide) h⟩

/-- **C84**: the number of transformations that map a uniquely solvable sudoku to itself divides 648. -/
theorem C84_unique (g : Grid) (hu : UniquelySolvable g) : Set.ncard {T : Sym | act T g = g} ∣ 648 := by
  obtain ⟨s, hs, hu⟩ := hu
  refine dvd_trans ?_ (C84_completed s hs.1)
  have hle : ∀ T : Sym, act T g = g → act T s = s := by
    intro T hT
    refine hu _ ?_
    have := (isSolution_act T g s).mpr hs
    rwa [hT] at this
  let incl : {T : Sym // act T g = g} →* {T : Sym // act T s = s} :=
    { toFun := fun T => ⟨T.1, hle T.1 T.2⟩, map_one' := rfl, map_mul' := fun _ _ => rfl }
  have h := Subgroup.card_dvd_of_injective incl (fun T U e => Subtype.ext (congrArg (fun V => V.1) e))
  rw [← card_aut, ← card_aut] at h
  exact h

/-- **C84**: so the number of different sudokus that shuffling a uniquely solvable sudoku can give is a multiple of
1881169920. -/
theorem C84_outcomes (g : Grid) (hg : WellFormed g) (hu : UniquelySolvable g) :
    1881169920 ∣ Set.ncard {g' | ∃ d, shuffle d g = .ok g'} := by
  have e : {g' | ∃ d, shuffle d g = .ok g'} = {g' | Equivalent g g'} := by
    ext g'
    exact C79_outcomes g g' hg
  rw [e]
  have h := C79_class_size g
  obtain ⟨k, hk⟩ := C84_unique g hu
  have hpos : 0 < Set.ncard {T : Sym | act T g = g} := by
    refine Nat.pos_of_ne_zero fun h0 => ?_
    rw [h0] at hk
    omega
  refine ⟨k, ?_⟩
  refine Nat.eq_of_mul_eq_mul_right hpos (h.trans ?_)
  rw [Nat.mul_assoc, Nat.mul_comm k, ← hk]

/-! ## The bound is attained -/

/-- Rows and columns of this grid: cell `j` of row `i` (of the band `b`) and stack `s` holds the digit
`3 * ((i + s) % 3) + (j + b) % 3 + 1`. -/
def mostSymmetric : Grid := Vector.ofFn fun c : Fin 81 =>
  UInt8.ofNat (3 * ((c.val / 9 % 3 + c.val % 9 / 3) % 3) + (c.val % 3 + c.val / 27) % 3 + 1)

private def affineFun (e f : Bool) (m n : Fin 3) (r : Fin 9) : Fin 9 :=
  ⟨3 * (((if e then 2 else 1) * (r.val / 3) + m.val) % 3) + ((if f then 2 else 1) * (r.val % 3) + n.val) % 3, by omega⟩

private def affineInv (e f : Bool) (m n : Fin 3) (r : Fin 9) : Fin 9 :=
  ⟨3 * (((if e then 2 else 1) * (r.val / 3 + 3 - m.val)) % 3) + ((if f then 2 else 1) * (r.val % 3 + 3 - n.val)) % 3, by omega⟩

private theorem affine_inv : ∀ (e f : Bool) (m n : Fin 3) (r : Fin 9),
    affineInv e f m n (affineFun e f m n r) = r ∧ affineFun e f m n (affineInv e f m n r) = r := by
  decide +kernel

private def affine (e f : Bool) (m n : Fin 3) : Equiv.Perm (Fin 9) where
  toFun := affineFun e f m n
  invFun := affineInv e f m n
  left_inv r := (affine_inv e f m n r).1
  right_inv r := (affine_inv e f m n r).2

private theorem affine_ok (e f : Bool) (m n : Fin 3) : KeepsChutes (affine e f m n) := by
  intro i j h
  show (affineFun e f m n i).val / 3 = (affineFun e f m n j).val / 3
  unfold affineFun
  simp only [h]
  omega

private def swapParts : Equiv.Perm (Fin 9) where
  toFun d := ⟨3 * (d.val % 3) + d.val / 3, by omega⟩
  invFun d := ⟨3 * (d.val % 3) + d.val / 3, by omega⟩
  left_inv d := Fin.ext (by simp only; omega)
  right_inv d := Fin.ext (by simp only; omega)

private abbrev Par : Type := Bool × Bool × Bool × Fin 3 × Fin 3 × Fin 3 × Fin 3

private def sym (x : Par) : Sym :=
  match x with
  | (t, e, f, m, n, m', n') =>
    { transposed := t
      rows := affine e f m n
      cols := affine f e m' n'
      digits := (affine f e (n + m') (n' + m)).symm * (if t then swapParts else 1)
      rows_ok := affine_ok e f m n
      cols_ok := affine_ok f e m' n' }

private def digitAt (r c : Fin 9) : Fin 9 := ⟨3 * ((r.val % 3 + c.val / 3) % 3) + (c.val % 3 + r.val / 3) % 3, by omega⟩

private theorem cell_eq (r c : Fin 9) : cellRC mostSymmetric r c = UInt8.ofNat ((digitAt r c).val + 1) := by
  unfold cellRC mostSymmetric digitAt
  rw [Vector.getElem_ofFn]
  simp only
  rw [show (9 * r.val + c.val) / 9 = r.val by omega, show (9 * r.val + c.val) % 9 = c.val by omega,
    show (9 * r.val + c.val) % 3 = c.val % 3 by omega, show (9 * r.val + c.val) / 27 = r.val / 3 by omega]

private theorem part_div (a b : Nat) : (3 * (a % 3) + b % 3) / 3 = a % 3 := by omega

private theorem part_mod (a b : Nat) : (3 * (a % 3) + b % 3) % 3 = b % 3 := by omega

private theorem part_add (e : Bool) (x y m n : Nat) :
    (((if e then 2 else 1) * x + m) % 3 + ((if e then 2 else 1) * y + n) % 3) % 3
      = ((if e then 2 else 1) * ((x + y) % 3) + (m + n) % 3) % 3 := by
  cases e <;> simp only [if_true, Bool.false_eq_true, if_false] <;> omega

private theorem digit_affine (e f : Bool) (m n m' n' : Fin 3) (r c : Fin 9) :
    digitAt (affine e f m n r) (affine f e m' n' c) = affine f e (n + m') (n' + m) (digitAt r c) := by
  show digitAt (affineFun e f m n r) (affineFun f e m' n' c) = affineFun f e (n + m') (n' + m) (digitAt r c)
  apply Fin.ext
  simp only [digitAt, affineFun, Fin.val_add, part_div, part_mod]
  rw [part_add, part_add]

private theorem digit_swap (r c : Fin 9) : swapParts (digitAt c r) = digitAt r c := by
  apply Fin.ext
  show 3 * ((digitAt c r).val % 3) + (digitAt c r).val / 3 = _
  simp only [digitAt]
  omega

private theorem act_sym (x : Par) : act (sym x) mostSymmetric = mostSymmetric := by
  obtain ⟨t, e, f, m, n, m', n'⟩ := x
  apply grid_ext_rc
  intro r c
  rw [act_rc, cell_eq r c]
  cases t
  · simp only [sym, Bool.false_eq_true, if_false, mul_one]
    rw [cell_eq, relabel_of_mem, digit_affine, Equiv.symm_apply_apply]
  · simp only [sym, if_true]
    rw [cell_eq, relabel_of_mem, Equiv.Perm.mul_apply, digit_swap, digit_affine, Equiv.symm_apply_apply]

private theorem affine_injective : ∀ (e f : Bool) (m n : Fin 3) (e₂ f₂ : Bool) (m₂ n₂ : Fin 3),
    affineFun e f m n 0 = affineFun e₂ f₂ m₂ n₂ 0 → affineFun e f m n 1 = affineFun e₂ f₂ m₂ n₂ 1 →
    affineFun e f m n 3 = affineFun e₂ f₂ m₂ n₂ 3 → e = e₂ ∧ f = f₂ ∧ m = m₂ ∧ n = n₂ := by
  decide +kernel

private theorem sym_injective : Function.Injective sym := by
  rintro ⟨t, e, f, m, n, m', n'⟩ ⟨t₂, e₂, f₂, m₂, n₂, m₂', n₂'⟩ h
  have ht : t = t₂ := congrArg Sym.transposed h
  have hr : ∀ r, affineFun e f m n r = affineFun e₂ f₂ m₂ n₂ r := fun r => congrArg (fun T : Sym => T.rows r) h
  have hc : ∀ c, affineFun f e m' n' c = affineFun f₂ e₂ m₂' n₂' c := fun c => congrArg (fun T : Sym => T.cols c) h
  obtain ⟨he, hf, hm, hn⟩ := affine_injective e f m n e₂ f₂ m₂ n₂ (hr 0) (hr 1) (hr 3)
  obtain ⟨-, -, hm', hn'⟩ := affine_injective f e m' n' f₂ e₂ m₂' n₂' (hc 0) (hc 1) (hc 3)
  rw [ht, he, hf, hm, hn, hm', hn']

/-- **C84**: and 648 is attained. -/
theorem C84_attained : Solved mostSymmetric ∧ Set.ncard {T : Sym | act T mostSymmetric = mostSymmetric} = 648 ∧
    ∃ q, canonicalized 800 mostSymmetric = .ok (some (q, 648)) := by
  have hs : Solved mostSymmetric := by decide +kernel
  have hle := Nat.le_of_dvd (by decide) (C84_completed _ hs)
  have hge : 648 ≤ Set.ncard {T : Sym | act T mostSymmetric = mostSymmetric} := by
    have h1 : Set.ncard (Set.range sym) = 648 := by
      rw [← Set.image_univ, Set.ncard_image_of_injective _ sym_injective, Set.ncard_univ, Nat.card_eq_fintype_card]
      simp only [Fintype.card_prod, Fintype.card_bool, Fintype.card_fin]
    rw [← h1]
    exact Set.ncard_le_ncard (by rintro _ ⟨x, rfl⟩; exact act_sym x) (Set.toFinite _)
  have h := Nat.le_antisymm hle hge
  refine ⟨hs, h, ?_⟩
  obtain ⟨q, n, h1, h2, -⟩ := C27_automorphisms mostSymmetric hs 800 (le_refl _)
  rw [h2, h] at h1
  exact ⟨q, h1⟩

/-- **C84**: the bound needs a unique solution: every transformation maps the empty sudoku to itself. -/
theorem C84_empty : Set.ncard {T : Sym | act T (Vector.replicate 81 0) = Vector.replicate 81 0} = 1218998108160 := by
  have e : {T : Sym | act T (Vector.replicate 81 0) = Vector.replicate 81 0} = Set.univ := by
    rw [Set.eq_univ_iff_forall]
    intro T
    show act T (Vector.replicate 81 0) = Vector.replicate 81 0
    apply grid_ext_rc
    intro r c
    rw [act_rc]
    have h0 : ∀ r c, cellRC (Vector.replicate 81 0) r c = 0 := fun r c => by
      unfold cellRC
      exact Vector.getElem_replicate _
    simp only [h0, ite_self, relabel_zero]
  rw [e, Set.ncard_univ, C23_number_of_transformations]
  decide

/-- C84: the hypotheses of `C84_unique` and `C84_outcomes` are met. -/
example : Solved mostSymmetric ∧ UniquelySolvable mostSymmetric ∧
    1881169920 ∣ Set.ncard {g' | ∃ d, shuffle d mostSymmetric = .ok g'} := by
  have hs := C84_attained.1
  have hu : UniquelySolvable mostSymmetric := ⟨_, (solved_unique hs).1, (solved_unique hs).2⟩
  exact ⟨hs, hu, C84_outcomes _ (wellFormed_of_solved hs) hu⟩

end Verif.Props
