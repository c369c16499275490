import Verif.Proofs.Rearrange
import Mathlib.Data.Set.Card
import Mathlib.Data.Fintype.BigOperators

/-!
# The transformations form a group that acts on boards and preserves solutions
-/
namespace Verif

open Canon

/-! ## Cells by row and column -/

theorem grid_ext_rc {g h : Grid} (H : ∀ r c, cellRC g r c = cellRC h r c) : g = h := by
  apply Vector.ext
  intro i hi
  have := H ⟨i / 9, by omega⟩ ⟨i % 9, by omega⟩
  simp only [cellRC] at this
  have e : 9 * (i / 9) + i % 9 = i := by omega
  simpa only [e] using this

theorem cellRC_fin (g : Grid) (c : Fin 81) :
    g[c] = cellRC g ⟨c.val / 9, by omega⟩ ⟨c.val % 9, by omega⟩ := by
  simp only [cellRC]
  have e : 9 * (c.val / 9) + c.val % 9 = c.val := by omega
  simp only [e]
  rfl

theorem cellRC_ofFn (f : Fin 81 → UInt8) (r c : Fin 9) :
    cellRC (Vector.ofFn f) r c = f ⟨9 * r.val + c.val, by omega⟩ := by
  simp [cellRC]

theorem div9 (r c : Fin 9) : (9 * r.val + c.val) / 9 = r.val := by omega
theorem mod9 (r c : Fin 9) : (9 * r.val + c.val) % 9 = c.val := by omega

theorem act_rc (T : Sym) (g : Grid) (r c : Fin 9) :
    cellRC (act T g) r c =
      relabel T.digits (if T.transposed then cellRC g (T.cols c) (T.rows r) else cellRC g (T.rows r) (T.cols c)) := by
  unfold act
  rw [cellRC_ofFn]
  simp only [div9, mod9, Fin.eta]

/-! ## Relabelling -/

theorem relabel_of_mem (p : Equiv.Perm (Fin 9)) (d : Fin 9) :
    relabel p (UInt8.ofNat (d.val + 1)) = UInt8.ofNat ((p d).val + 1) := by
  have h : (UInt8.ofNat (d.val + 1)).toNat = d.val + 1 := by
    rw [UInt8.toNat_ofNat']; omega
  unfold relabel
  rw [dif_pos (by omega)]
  simp only [h, Nat.add_sub_cancel, Fin.eta]

theorem digit_cases (v : UInt8) : v = 0 ∨ (∃ d : Fin 9, v = UInt8.ofNat (d.val + 1)) ∨ 9 < v.toNat := by
  by_cases h0 : v.toNat = 0
  · left
    exact UInt8.toNat_inj.mp h0
  · by_cases h9 : 9 < v.toNat
    · exact Or.inr (Or.inr h9)
    · right; left
      refine ⟨⟨v.toNat - 1, by omega⟩, ?_⟩
      simp only
      rw [show v.toNat - 1 + 1 = v.toNat by omega, UInt8.ofNat_toNat]

theorem relabel_zero (p : Equiv.Perm (Fin 9)) : relabel p 0 = 0 := rfl

theorem relabel_big (p : Equiv.Perm (Fin 9)) {v : UInt8} (h : 9 < v.toNat) : relabel p v = v := by
  unfold relabel
  rw [dif_neg (by omega)]

theorem relabel_relabel (p q : Equiv.Perm (Fin 9)) (v : UInt8) :
    relabel p (relabel q v) = relabel (p * q) v := by
  rcases digit_cases v with rfl | ⟨d, rfl⟩ | h
  · rfl
  · rw [relabel_of_mem, relabel_of_mem, relabel_of_mem]; rfl
  · rw [relabel_big _ h, relabel_big _ h, relabel_big _ h]

theorem relabel_one (v : UInt8) : relabel 1 v = v := by
  rcases digit_cases v with rfl | ⟨d, rfl⟩ | h
  · rfl
  · rw [relabel_of_mem]; rfl
  · rw [relabel_big _ h]

theorem relabel_injective (p : Equiv.Perm (Fin 9)) : Function.Injective (relabel p) := by
  intro a b h
  have := congrArg (relabel p⁻¹) h
  rw [relabel_relabel, relabel_relabel] at this
  simpa [relabel_one] using this

theorem relabel_eq_zero (p : Equiv.Perm (Fin 9)) (v : UInt8) : relabel p v = 0 ↔ v = 0 := by
  constructor
  · intro h
    exact relabel_injective p (h.trans (relabel_zero p).symm)
  · rintro rfl; rfl

theorem ofNat_digit_range (d : Fin 9) :
    1 ≤ UInt8.ofNat (d.val + 1) ∧ UInt8.ofNat (d.val + 1) ≤ 9 := by
  decide +revert +kernel

theorem relabel_digit (p : Equiv.Perm (Fin 9)) {v : UInt8} (h : 1 ≤ v ∧ v ≤ 9) :
    1 ≤ relabel p v ∧ relabel p v ≤ 9 := by
  rcases digit_cases v with rfl | ⟨d, rfl⟩ | h'
  · exact absurd h.1 (by decide)
  · rw [relabel_of_mem]; exact ofNat_digit_range _
  · have := UInt8.le_iff_toNat_le.mp h.2
    have e : (9 : UInt8).toNat = 9 := rfl
    omega

theorem relabel_le (p : Equiv.Perm (Fin 9)) {v : UInt8} (h : v ≤ 9) : relabel p v ≤ 9 := by
  rcases digit_cases v with rfl | ⟨d, rfl⟩ | h'
  · exact h
  · rw [relabel_of_mem]; exact (ofNat_digit_range _).2
  · have := UInt8.le_iff_toNat_le.mp h
    have e : (9 : UInt8).toNat = 9 := rfl
    omega

/-! ## Permutations that keep chutes -/

/-- Permute the chutes with `β`, and the lines within chute `b` with `π b`. -/
def lines (β : Equiv.Perm (Fin 3)) (π : Fin 3 → Equiv.Perm (Fin 3)) : Equiv.Perm (Fin 9) where
  toFun x := ⟨3 * (β ⟨x.val / 3, by omega⟩).val + (π ⟨x.val / 3, by omega⟩ ⟨x.val % 3, by omega⟩).val, by omega⟩
  invFun y := ⟨3 * (β.symm ⟨y.val / 3, by omega⟩).val +
    ((π (β.symm ⟨y.val / 3, by omega⟩)).symm ⟨y.val % 3, by omega⟩).val, by omega⟩
  left_inv x := by
    apply Fin.ext
    have h1 : ∀ (a c : Fin 3), (3 * a.val + c.val) / 3 = a.val := by intro a c; omega
    have h2 : ∀ (a c : Fin 3), (3 * a.val + c.val) % 3 = c.val := by intro a c; omega
    simp only [h1, h2, Fin.eta, Equiv.symm_apply_apply]
    omega
  right_inv x := by
    apply Fin.ext
    have h1 : ∀ (a c : Fin 3), (3 * a.val + c.val) / 3 = a.val := by intro a c; omega
    have h2 : ∀ (a c : Fin 3), (3 * a.val + c.val) % 3 = c.val := by intro a c; omega
    simp only [h1, h2, Fin.eta, Equiv.apply_symm_apply]
    omega

theorem lines_apply (β : Equiv.Perm (Fin 3)) (π : Fin 3 → Equiv.Perm (Fin 3)) (b i : Fin 3) :
    (lines β π ⟨3 * b.val + i.val, by omega⟩).val = 3 * (β b).val + (π b i).val := by
  have h1 : ∀ (a c : Fin 3), (3 * a.val + c.val) / 3 = a.val := by intro a c; omega
  have h2 : ∀ (a c : Fin 3), (3 * a.val + c.val) % 3 = c.val := by intro a c; omega
  simp only [lines, Equiv.coe_fn_mk, h1, h2, Fin.eta]

theorem lines_div (β : Equiv.Perm (Fin 3)) (π : Fin 3 → Equiv.Perm (Fin 3)) (x : Fin 9) :
    (lines β π x).val / 3 = (β ⟨x.val / 3, by omega⟩).val := by
  simp only [lines, Equiv.coe_fn_mk]; omega

theorem lines_mod (β : Equiv.Perm (Fin 3)) (π : Fin 3 → Equiv.Perm (Fin 3)) (x : Fin 9) :
    (lines β π x).val % 3 = (π ⟨x.val / 3, by omega⟩ ⟨x.val % 3, by omega⟩).val := by
  simp only [lines, Equiv.coe_fn_mk]; omega

theorem lines_keeps (β : Equiv.Perm (Fin 3)) (π : Fin 3 → Equiv.Perm (Fin 3)) : KeepsChutes (lines β π) := by
  intro i j h
  rw [lines_div, lines_div]
  simp only [h]

theorem lines_inj {β β' : Equiv.Perm (Fin 3)} {π π' : Fin 3 → Equiv.Perm (Fin 3)}
    (h : lines β π = lines β' π') : β = β' ∧ π = π' := by
  have key : ∀ b i : Fin 3, 3 * (β b).val + (π b i).val = 3 * (β' b).val + (π' b i).val := by
    intro b i
    rw [← lines_apply, ← lines_apply, h]
  constructor
  · ext b
    have := key b 0
    omega
  · funext b
    ext i
    have := key b i
    omega

theorem exists_lines {p : Equiv.Perm (Fin 9)} (hp : KeepsChutes p) : ∃ β π, p = lines β π := by
  let β0 : Fin 3 → Fin 3 := fun b => ⟨(p ⟨3 * b.val, by omega⟩).val / 3, by omega⟩
  have hβ : ∀ x : Fin 9, (p x).val / 3 = (β0 ⟨x.val / 3, by omega⟩).val := by
    intro x
    apply hp
    simp only
    omega
  have hsurj : Function.Surjective β0 := by
    intro y
    obtain ⟨x, hx⟩ := p.surjective ⟨3 * y.val, by omega⟩
    refine ⟨⟨x.val / 3, by omega⟩, ?_⟩
    apply Fin.ext
    rw [← hβ, hx]
    simp only
    omega
  let β : Equiv.Perm (Fin 3) := Equiv.ofBijective β0 (Finite.surjective_iff_bijective.mp hsurj)
  have hinj : ∀ b : Fin 3, Function.Injective
      (fun i : Fin 3 => (⟨(p ⟨3 * b.val + i.val, by omega⟩).val % 3, by omega⟩ : Fin 3)) := by
    intro b i j hij
    have h1 := hβ ⟨3 * b.val + i.val, by omega⟩
    have h2 := hβ ⟨3 * b.val + j.val, by omega⟩
    have e1 : (3 * b.val + i.val) / 3 = b.val := by omega
    have e2 : (3 * b.val + j.val) / 3 = b.val := by omega
    simp only [e1, e2] at h1 h2
    simp only [Fin.mk.injEq] at hij
    have : p ⟨3 * b.val + i.val, by omega⟩ = p ⟨3 * b.val + j.val, by omega⟩ := by
      apply Fin.ext
      omega
    have := congrArg Fin.val (p.injective this)
    simp only at this
    apply Fin.ext
    omega
  let π : Fin 3 → Equiv.Perm (Fin 3) := fun b =>
    Equiv.ofBijective _ (Finite.injective_iff_bijective.mp (hinj b))
  refine ⟨β, π, ?_⟩
  ext x
  have h1 : (lines β π x).val / 3 = (p x).val / 3 := by
    rw [lines_div, hβ]
    rfl
  have h2 : (lines β π x).val % 3 = (p x).val % 3 := by
    rw [lines_mod]
    show (p ⟨3 * (x.val / 3) + x.val % 3, _⟩).val % 3 = _
    have e : 3 * (x.val / 3) + x.val % 3 = x.val := by omega
    simp only [e]
  omega

theorem KeepsChutes.iff {p : Equiv.Perm (Fin 9)} (hp : KeepsChutes p) (i j : Fin 9) :
    (p i).val / 3 = (p j).val / 3 ↔ i.val / 3 = j.val / 3 := by
  constructor
  · obtain ⟨β, π, rfl⟩ := exists_lines hp
    rw [lines_div, lines_div]
    intro h
    have := β.injective (Fin.ext h)
    simpa using this
  · exact hp i j

theorem KeepsChutes.mul {p q : Equiv.Perm (Fin 9)} (hp : KeepsChutes p) (hq : KeepsChutes q) :
    KeepsChutes (p * q) := fun i j h => hp _ _ (hq i j h)

theorem KeepsChutes.inv {p : Equiv.Perm (Fin 9)} (hp : KeepsChutes p) : KeepsChutes p⁻¹ := by
  intro i j h
  rw [← hp.iff]
  simpa using h

theorem KeepsChutes.one : KeepsChutes 1 := fun _ _ h => h

/-! ## The group structure -/

theorem Sym.ext' {T U : Sym} (h1 : T.transposed = U.transposed) (h2 : T.rows = U.rows) (h3 : T.cols = U.cols)
    (h4 : T.digits = U.digits) : T = U := by
  cases T; cases U; simp_all

/-- The transformation that changes nothing. -/
def Sym.one : Sym := ⟨false, 1, 1, 1, KeepsChutes.one, KeepsChutes.one⟩

/-- `T` after `U`. -/
def Sym.after (T U : Sym) : Sym where
  transposed := xor T.transposed U.transposed
  rows := (if T.transposed then U.cols else U.rows) * T.rows
  cols := (if T.transposed then U.rows else U.cols) * T.cols
  digits := T.digits * U.digits
  rows_ok := by split <;> [exact U.cols_ok.mul T.rows_ok; exact U.rows_ok.mul T.rows_ok]
  cols_ok := by split <;> [exact U.rows_ok.mul T.cols_ok; exact U.cols_ok.mul T.cols_ok]

/-- The inverse. -/
def Sym.inv (T : Sym) : Sym where
  transposed := T.transposed
  rows := (if T.transposed then T.cols else T.rows)⁻¹
  cols := (if T.transposed then T.rows else T.cols)⁻¹
  digits := T.digits⁻¹
  rows_ok := by split <;> [exact T.cols_ok.inv; exact T.rows_ok.inv]
  cols_ok := by split <;> [exact T.rows_ok.inv; exact T.cols_ok.inv]

theorem act_one (g : Grid) : act Sym.one g = g := by
  apply grid_ext_rc
  intro r c
  rw [act_rc]
  simp [Sym.one, relabel_one]

theorem act_after (T U : Sym) (g : Grid) : act (T.after U) g = act T (act U g) := by
  apply grid_ext_rc
  intro r c
  rw [act_rc, act_rc]
  simp only [act_rc, Sym.after]
  rcases Bool.eq_false_or_eq_true T.transposed with h | h <;>
    rcases Bool.eq_false_or_eq_true U.transposed with h' | h' <;>
    simp [relabel_relabel, h, h']

theorem Sym.inv_after (T : Sym) : T.inv.after T = Sym.one := by
  apply Sym.ext'
  · simp [Sym.after, Sym.inv, Sym.one]
  · rcases Bool.eq_false_or_eq_true T.transposed with h | h <;> simp [Sym.after, Sym.inv, Sym.one, h]
  · rcases Bool.eq_false_or_eq_true T.transposed with h | h <;> simp [Sym.after, Sym.inv, Sym.one, h]
  · simp [Sym.after, Sym.inv, Sym.one]

theorem Sym.after_inv (T : Sym) : T.after T.inv = Sym.one := by
  rcases Bool.eq_false_or_eq_true T.transposed with h | h <;>
    apply Sym.ext' <;> simp [Sym.after, Sym.inv, Sym.one, h]

theorem Sym.after_assoc (T U V : Sym) : (T.after U).after V = T.after (U.after V) := by
  rcases Bool.eq_false_or_eq_true T.transposed with h | h <;>
    rcases Bool.eq_false_or_eq_true U.transposed with h' | h' <;>
    apply Sym.ext' <;> simp [Sym.after, mul_assoc, h, h']

theorem Sym.one_after (T : Sym) : Sym.one.after T = T := by
  apply Sym.ext' <;> simp [Sym.after, Sym.one]

theorem Sym.after_one (T : Sym) : T.after Sym.one = T := by
  apply Sym.ext' <;> simp [Sym.after, Sym.one]

theorem act_inv_act (T : Sym) (g : Grid) : act T.inv (act T g) = g := by
  rw [← act_after, Sym.inv_after, act_one]

theorem act_act_inv (T : Sym) (g : Grid) : act T (act T.inv g) = g := by
  rw [← act_after, Sym.after_inv, act_one]

theorem act_injective (T : Sym) : Function.Injective (act T) := by
  intro g h e
  rw [← act_inv_act T g, e, act_inv_act]

theorem Equivalent.refl (g : Grid) : Equivalent g g := ⟨Sym.one, act_one g⟩

theorem Equivalent.symm {g h : Grid} (H : Equivalent g h) : Equivalent h g := by
  obtain ⟨T, rfl⟩ := H
  exact ⟨T.inv, act_inv_act T g⟩

theorem Equivalent.trans {g h k : Grid} (H : Equivalent g h) (K : Equivalent h k) : Equivalent g k := by
  obtain ⟨T, rfl⟩ := H
  obtain ⟨U, rfl⟩ := K
  exact ⟨U.after T, act_after U T g⟩

/-! ## What is preserved -/

/-- Two cells in a common house, by row and column. -/
def House2 (r c r' c' : Fin 9) : Prop :=
  r = r' ∨ c = c' ∨ (r.val / 3 = r'.val / 3 ∧ c.val / 3 = c'.val / 3)

theorem solved_iff_rc (g : Grid) : Solved g ↔
    (∀ r c, 1 ≤ cellRC g r c ∧ cellRC g r c ≤ 9) ∧
    ∀ r c r' c', (r ≠ r' ∨ c ≠ c') → House2 r c r' c' → cellRC g r c ≠ cellRC g r' c' := by
  have key : ∀ r c r' c' : Fin 9,
      (SameHouse (9 * r.val + c.val) (9 * r'.val + c'.val) ↔ House2 r c r' c') := by
    intro r c r' c'
    unfold SameHouse House2 blockOf rowOf colOf
    rw [div9, div9, mod9, mod9, Fin.ext_iff, Fin.ext_iff]
    constructor
    · rintro (h | h | h)
      · exact Or.inl h
      · exact Or.inr (Or.inl h)
      · refine Or.inr (Or.inr ?_)
        omega
    · rintro (h | h | ⟨h, h'⟩)
      · exact Or.inl h
      · exact Or.inr (Or.inl h)
      · refine Or.inr (Or.inr ?_)
        omega
  constructor
  · rintro ⟨h1, h2⟩
    refine ⟨fun r c => h1 ⟨9 * r.val + c.val, by omega⟩, ?_⟩
    intro r c r' c' hne hh
    refine h2 ⟨9 * r.val + c.val, by omega⟩ ⟨9 * r'.val + c'.val, by omega⟩ ?_ ((key r c r' c').mpr hh)
    intro e
    have e' := congrArg Fin.val e
    simp only at e'
    rcases hne with h | h <;> apply h <;> apply Fin.ext <;> omega
  · rintro ⟨h1, h2⟩
    refine ⟨fun c => ?_, ?_⟩
    · rw [cellRC_fin]; exact h1 _ _
    · intro c c' hne hh
      rw [cellRC_fin g c, cellRC_fin g c']
      apply h2
      · by_contra hcon
        push Not at hcon
        apply hne
        apply Fin.ext
        have := congrArg Fin.val hcon.1
        have := congrArg Fin.val hcon.2
        simp only at *
        omega
      · rw [← key]
        have e : 9 * (c.val / 9) + c.val % 9 = c.val := by omega
        have e' : 9 * (c'.val / 9) + c'.val % 9 = c'.val := by omega
        simp only [e, e']
        exact hh

theorem solved_act_of {g : Grid} (T : Sym) (h : Solved g) : Solved (act T g) := by
  rw [solved_iff_rc] at h ⊢
  obtain ⟨h1, h2⟩ := h
  refine ⟨?_, ?_⟩
  · intro r c
    rw [act_rc]
    apply relabel_digit
    split <;> exact h1 _ _
  · intro r c r' c' hne hh
    rw [act_rc, act_rc]
    intro e
    have e := relabel_injective _ e
    have hh' : House2 (T.rows r) (T.cols c) (T.rows r') (T.cols c') := by
      rcases hh with h | h | h
      · exact Or.inl (by rw [h])
      · exact Or.inr (Or.inl (by rw [h]))
      · exact Or.inr (Or.inr ⟨T.rows_ok _ _ h.1, T.cols_ok _ _ h.2⟩)
    have hne' : T.rows r ≠ T.rows r' ∨ T.cols c ≠ T.cols c' := by
      rcases hne with h | h
      · exact Or.inl (fun e => h (T.rows.injective e))
      · exact Or.inr (fun e => h (T.cols.injective e))
    split at e
    · refine h2 _ _ _ _ hne'.symm ?_ e
      rcases hh' with h | h | h
      · exact Or.inr (Or.inl h)
      · exact Or.inl h
      · exact Or.inr (Or.inr ⟨h.2, h.1⟩)
    · exact h2 _ _ _ _ hne' hh' e

theorem solved_act (T : Sym) (g : Grid) : Solved (act T g) ↔ Solved g :=
  ⟨fun h => by have := solved_act_of T.inv h; rwa [act_inv_act] at this, solved_act_of T⟩

theorem extends_iff_rc (s t : Grid) : Extends s t ↔ ∀ r c, cellRC s r c ≠ 0 → cellRC t r c = cellRC s r c := by
  constructor
  · intro h r c hne
    exact h ⟨9 * r.val + c.val, by omega⟩ hne
  · intro h c hne
    rw [cellRC_fin] at hne
    rw [cellRC_fin t c, cellRC_fin s c]
    exact h _ _ hne

theorem extends_act_of {s t : Grid} (T : Sym) (h : Extends s t) : Extends (act T s) (act T t) := by
  rw [extends_iff_rc] at h ⊢
  intro r c hne
  rw [act_rc, Ne, relabel_eq_zero] at hne
  rw [act_rc, act_rc]
  congr 1
  split at hne <;> rename_i hT <;> simp only [hT, if_true] <;> exact h _ _ hne

theorem isSolution_act (T : Sym) (s t : Grid) : IsSolution (act T s) (act T t) ↔ IsSolution s t := by
  constructor
  · rintro ⟨h1, h2⟩
    refine ⟨(solved_act T t).mp h1, ?_⟩
    have := extends_act_of T.inv h2
    rwa [act_inv_act, act_inv_act] at this
  · rintro ⟨h1, h2⟩
    exact ⟨solved_act_of T h1, extends_act_of T h2⟩

theorem solutionSet_act (T : Sym) (s : Grid) : solutionSet (act T s) = act T '' solutionSet s := by
  ext t
  constructor
  · intro h
    refine ⟨act T.inv t, ?_, act_act_inv T t⟩
    have : IsSolution (act T s) (act T (act T.inv t)) := by rw [act_act_inv]; exact h
    exact (isSolution_act T s _).mp this
  · rintro ⟨u, hu, rfl⟩
    exact (isSolution_act T s u).mpr hu

theorem numSolutions_act (T : Sym) (s : Grid) : numSolutions (act T s) = numSolutions s := by
  unfold numSolutions
  rw [solutionSet_act]
  exact Set.ncard_image_of_injective _ (act_injective T)

theorem wellFormed_iff_rc (g : Grid) : WellFormed g ↔ ∀ r c, cellRC g r c ≤ 9 := by
  constructor
  · intro h r c
    exact h ⟨9 * r.val + c.val, by omega⟩
  · intro h c
    rw [cellRC_fin]
    exact h _ _

theorem wellFormed_act {g : Grid} (T : Sym) (h : WellFormed g) : WellFormed (act T g) := by
  rw [wellFormed_iff_rc] at h ⊢
  intro r c
  rw [act_rc]
  apply relabel_le
  split <;> exact h _ _

end Verif
