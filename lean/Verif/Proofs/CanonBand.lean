import Verif.Proofs.Normal
import Verif.Proofs.ResMonad

/-!
# The search for the minimal first band
-/
namespace Verif.Canon

open Verif Sudoku

theorem Res.bind3 {α β γ δ : Type} (a : Res α) (b : α → Res β) (c : β → Res γ) (f : γ → Res δ) :
    (do let x ← a; let y ← b x; let z ← c y; f z) = ((do let x ← a; let y ← b x; c y) >>= f) := by
  cases a with
  | ok x =>
    simp only [Res.ok_bind]
    cases b x <;> rfl
  | err => rfl
  | panic => rfl
  | timeout => rfl

/-- The content of a band by row and column. -/
def bandRC (B : Vector UInt8 27) (r : Fin 3) (c : Fin 9) : UInt8 := B[9 * r.val + c.val]

theorem bandRC_rearr (ρ : Fin 3 → Fin 3) (κ : Fin 9 → Fin 9) (B : Vector UInt8 27) (r : Fin 3) (c : Fin 9) :
    bandRC (rearr (bandMap ρ κ) B) r c = bandRC B (ρ r) (κ c) := by
  unfold bandRC
  rw [rearr_getNat]
  have h1 : (9 * r.val + c.val) / 9 = r.val := by omega
  have h2 : (9 * r.val + c.val) % 9 = c.val := by omega
  simp only [bandMap, h1, h2, Fin.eta]
  rfl

/-- What is used of a band of a solved grid. -/
structure GoodBand (B : Vector UInt8 27) : Prop where
  range : ∀ r c, 1 ≤ bandRC B r c ∧ bandRC B r c ≤ 9
  row_inj : ∀ r, Function.Injective (bandRC B r)
  box_ne : ∀ r r' c c', r ≠ r' → c.val / 3 = c'.val / 3 → bandRC B r c ≠ bandRC B r' c'

theorem GoodBand.rearr {B : Vector UInt8 27} (h : GoodBand B) (ρ : Equiv.Perm (Fin 3)) (κ : Equiv.Perm (Fin 9))
    (hκ : KeepsChutes κ) : GoodBand (rearr (bandMap ρ κ) B) where
  range r c := by rw [bandRC_rearr]; exact h.range _ _
  row_inj r c c' e := by
    rw [bandRC_rearr, bandRC_rearr] at e
    exact κ.injective (h.row_inj _ e)
  box_ne r r' c c' hne hc := by
    rw [bandRC_rearr, bandRC_rearr]
    exact h.box_ne _ _ _ _ (fun e => hne (ρ.injective e)) (hκ _ _ hc)

/-- The relabelling that turns nine digits into `1..9`. -/
noncomputable def labelOf (f : Fin 9 → UInt8) : Equiv.Perm (Fin 9) := by
  classical
  exact if h : ∃ δ : Equiv.Perm (Fin 9), ∀ c : Fin 9, relabel δ (f c) = UInt8.ofNat (c.val + 1) then h.choose else 1

theorem labelOf_spec {f : Fin 9 → UInt8} (hf : Function.Injective f) (hr : ∀ c, 1 ≤ f c ∧ f c ≤ 9) (c : Fin 9) :
    relabel (labelOf f) (f c) = UInt8.ofNat (c.val + 1) := by
  unfold labelOf
  rw [dif_pos (exists_relabel f hf hr)]
  exact (exists_relabel f hf hr).choose_spec c

theorem labelOf_inv {f : Fin 9 → UInt8} (hf : Function.Injective f) (hr : ∀ c, 1 ≤ f c ∧ f c ≤ 9) (c : Fin 9) :
    f c = UInt8.ofNat (((labelOf f)⁻¹ c).val + 1) := by
  rw [← relabel_of_mem, ← labelOf_spec hf hr c, relabel_relabel]
  simp [relabel_one]

/-- Every digit occurs in a row. -/
theorem GoodBand.exists_col {B : Vector UInt8 27} (h : GoodBand B) (r : Fin 3) {d : UInt8}
    (hd : 1 ≤ d ∧ d ≤ 9) : ∃ c, bandRC B r c = d := by
  rcases digit_cases d with rfl | ⟨e, rfl⟩ | h'
  · exact absurd hd.1 (by decide)
  · refine ⟨labelOf (bandRC B r) e, ?_⟩
    rw [labelOf_inv (h.row_inj r) (h.range r)]
    simp
  · have := UInt8.le_iff_toNat_le.mp hd.2
    have e : (9 : UInt8).toNat = 9 := rfl
    omega

/-- The sixteen entries that are compared, after relabelling. -/
def bandVal (B : Vector UInt8 27) (δ : Equiv.Perm (Fin 9)) : Vector UInt8 16 :=
  Vector.ofFn (fun i : Fin 16 => relabel δ (B[11 + i.val]))

theorem mapM_ok {α β : Type} (f : α → Res β) (g : α → β) (l : List α) (h : ∀ x ∈ l, f x = .ok (g x)) :
    l.mapM f = .ok (l.map g) := by
  induction l with
  | nil => rfl
  | cons x xs ih =>
    rw [List.mapM_cons, h x (by simp), Res.ok_bind, ih (fun y hy => h y (by simp [hy])), Res.ok_bind]
    rfl

theorem GoodBand.get {B : Vector UInt8 27} (h : GoodBand B) (i : Nat) (hi : i < 27) : 1 ≤ B[i] ∧ B[i] ≤ 9 := by
  have := h.range ⟨i / 9, by omega⟩ ⟨i % 9, by omega⟩
  unfold bandRC at this
  have e : 9 * (i / 9) + i % 9 = i := by omega
  simpa only [e] using this

theorem ne_zero_of_one_le {v : UInt8} (h : 1 ≤ v) : v ≠ 0 := by
  rintro rfl
  exact absurd h (by decide)

theorem bandValue_eq {B : Vector UInt8 27} (h : GoodBand B) (δ : Equiv.Perm (Fin 9)) :
    bandValue (digitVec δ) B = .ok (bandVal B δ).toList := by
  unfold bandValue
  rw [mapM_ok _ (relabel δ)]
  · congr 1
    apply List.ext_getElem
    · simp
    · intro i h1 h2
      simp [bandVal]
  · intro x hx
    have hx := List.mem_of_mem_drop hx
    rw [Vector.mem_toList_iff] at hx
    obtain ⟨i, hi, rfl⟩ := Vector.getElem_of_mem hx
    have := h.get i hi
    exact lookupDigit_digitVec δ (ne_zero_of_one_le this.1) this.2

theorem setDigit_eq (m : Vector UInt8 9) (d : Fin 9) (v : UInt8) :
    setDigit m (UInt8.ofNat (d.val + 1)) v = .ok (m.set d.val v) := by
  have ht : (UInt8.ofNat (d.val + 1)).toNat = d.val + 1 := by rw [UInt8.toNat_ofNat']; omega
  unfold setDigit
  rw [if_neg (ne_zero_of_one_le (ofNat_digit_range d).1), dif_pos (by omega)]
  simp only [ht, Nat.add_sub_cancel]

/-- Taking a candidate into account. -/
def consider (st : BandState) (v : Vector UInt8 16) (t : MinBandTransformation) : BandState :=
  if num st.minimum.toList < num v.toList then st
  else if num v.toList < num st.minimum.toList then ⟨v, [t]⟩
  else ⟨st.minimum, st.transformations ++ [t]⟩

/-- The mapping is right on the labels of the first six columns. -/
def GoodMapping (B : Vector UInt8 27) (m : Vector UInt8 9) : Prop :=
  ∀ k : Fin 9, k.val < 6 → ∀ d : Fin 9, bandRC B 0 k = UInt8.ofNat (d.val + 1) → m[d] = UInt8.ofNat (k.val + 1)

theorem inner2_lines (p : Equiv.Perm (Fin 3)) : inner 2 p = lines 1 (fun k => if k = 2 then p else 1) := by
  have h := chute_inner 1 (fun k => if k = 2 then p else 1)
  rw [← h]
  have h1 : chute (⇑(1 : Equiv.Perm (Fin 3))) = id := chute_id
  have h2 : ∀ k : Fin 3, inner k ⇑(1 : Equiv.Perm (Fin 3)) = id := by
    intro k
    funext x
    apply Fin.ext
    simp only [inner, id]
    split
    · simp only [Equiv.Perm.coe_one, id]; omega
    · rfl
  rw [h1]
  simp only [Fin.reduceEq, if_false, if_true, h2]
  rfl

theorem inner2_low (p : Equiv.Perm (Fin 3)) (k : Fin 9) (hk : k.val < 6) : inner 2 p k = k := by
  unfold inner
  rw [if_neg]
  have : (2 : Fin 3).val = 2 := rfl
  omega

theorem ofNat_fin_inj {d d' : Fin 9} (h : UInt8.ofNat (d.val + 1) = UInt8.ofNat (d'.val + 1)) : d = d' := by
  have := congrArg UInt8.toNat h
  rw [toNat_ofNat_fin, toNat_ofNat_fin] at this
  exact Fin.ext (by omega)

/-- The last three entries complete the mapping. -/
theorem mapping_complete {B : Vector UInt8 27} (h : GoodBand B) {m : Vector UInt8 9} (hm : GoodMapping B m) :
    (do
      let m ← setDigit m B[6] 7
      let m ← setDigit m B[7] 8
      setDigit m B[8] 9) = .ok (digitVec (labelOf (bandRC B 0))) := by
  set δ := labelOf (bandRC B 0) with hδ
  have hinv := labelOf_inv (h.row_inj 0) (h.range 0)
  rw [← hδ] at hinv
  have e6 : B[6] = UInt8.ofNat ((δ⁻¹ 6).val + 1) := hinv 6
  have e7 : B[7] = UInt8.ofNat ((δ⁻¹ 7).val + 1) := hinv 7
  have e8 : B[8] = UInt8.ofNat ((δ⁻¹ 8).val + 1) := hinv 8
  rw [e6, setDigit_eq, Res.ok_bind, e7, setDigit_eq, Res.ok_bind, e8, setDigit_eq]
  congr 1
  apply Vector.ext
  intro i hi
  obtain ⟨k, hk⟩ : ∃ k, δ⁻¹ k = ⟨i, hi⟩ := ⟨δ ⟨i, hi⟩, by simp⟩
  have hi' : i = (δ⁻¹ k).val := by rw [hk]
  have hdig : (digitVec δ)[i] = UInt8.ofNat (k.val + 1) := by
    unfold digitVec
    rw [Vector.getElem_ofFn, ← hk]
    simp
  rw [hdig]
  have hne : ∀ a : Fin 9, a ≠ k → (δ⁻¹ a).val ≠ i := by
    intro a ha e
    rw [hi'] at e
    exact ha (δ⁻¹.injective (Fin.ext e))
  rw [Vector.getElem_set, Vector.getElem_set, Vector.getElem_set]
  by_cases k8 : k = 8
  · subst k8
    rw [if_pos hi'.symm]; rfl
  · rw [if_neg (hne 8 (Ne.symm k8))]
    by_cases k7 : k = 7
    · subst k7
      rw [if_pos hi'.symm]; rfl
    · rw [if_neg (hne 7 (Ne.symm k7))]
      by_cases k6 : k = 6
      · subst k6
        rw [if_pos hi'.symm]; rfl
      · rw [if_neg (hne 6 (Ne.symm k6))]
        have hk6 : k.val < 6 := by
          have a6 : k.val ≠ 6 := fun e => k6 (Fin.ext e)
          have a7 : k.val ≠ 7 := fun e => k7 (Fin.ext e)
          have a8 : k.val ≠ 8 := fun e => k8 (Fin.ext e)
          omega
        exact hm k hk6 ⟨i, hi⟩ (by rw [hinv k, hk])

/-- The candidate of the band `B` (complete arrangement). -/
noncomputable def bandTransformation (bandNr : Nat) (u : Bool) (rp sp c0 c1 c2 : Permutation3)
    (B : Vector UInt8 27) : MinBandTransformation where
  band := bandNr
  transposed := u
  rowPermutation := rp
  stackPermutation := sp
  colPermutations := ⟨c0, c1, c2⟩
  digitRemapping := digitVec (labelOf (bandRC B 0))

theorem fromChoices_eq (a : Fin 3) (b : Fin 2) : Permutation3.fromChoices a b = .ok (P3 a b) := by
  unfold Permutation3.fromChoices
  simp only [decide_eq_true a.isLt, decide_eq_true b.isLt, Res.assert_true, Res.ok_bind]
  rfl

theorem goodMapping_label {B : Vector UInt8 27} (h : GoodBand B) : GoodMapping B (digitVec (labelOf (bandRC B 0))) := by
  intro k _ d hd
  have := labelOf_spec (h.row_inj 0) (h.range 0) k
  rw [hd, relabel_of_mem] at this
  show (digitVec _)[d.val] = _
  unfold digitVec
  rw [Vector.getElem_ofFn]
  exact this

theorem lastBoxStep_eq {B3 : Vector UInt8 27} (h : GoodBand B3) (bandNr : Nat) (u : Bool) (f : Fin 3)
    (rp cp : Permutation3) (ch : Fin 2) (fc : Fin 3) (sc : Fin 2) (st : BandState) (m : Vector UInt8 9)
    (hm : GoodMapping B3 m) (lp : Fin 6) :
    ∃ m', GoodMapping B3 m' ∧
    lastBoxStep bandNr u f rp cp ch fc sc B3 (st, m) lp =
      .ok (consider st
        (bandVal (rearr (bandMap id (inner 2 (perm3 (six lp).1 (six lp).2))) B3)
          (labelOf (bandRC (rearr (bandMap id (inner 2 (perm3 (six lp).1 (six lp).2))) B3) 0)))
        (bandTransformation bandNr u rp (P3 f ch) cp (P3 fc sc) (P3 (six lp).1 (six lp).2)
          (rearr (bandMap id (inner 2 (perm3 (six lp).1 (six lp).2))) B3)), m') := by
  set B := rearr (bandMap id (inner 2 (perm3 (six lp).1 (six lp).2))) B3 with hB
  have hgood : GoodBand B := by
    rw [hB, inner2_lines]
    exact h.rearr 1 _ (lines_keeps _ _)
  have hrow : ∀ k : Fin 9, k.val < 6 → bandRC B 0 k = bandRC B3 0 k := by
    intro k hk
    rw [hB, bandRC_rearr, inner2_low _ _ hk]
    rfl
  have hmB : GoodMapping B m := by
    intro k hk d hd
    rw [hrow k hk] at hd
    exact hm k hk d hd
  refine ⟨digitVec (labelOf (bandRC B 0)), ?_, ?_⟩
  · intro k hk d hd
    rw [← hrow k hk] at hd
    exact goodMapping_label hgood k hk d hd
  · have hmap := mapping_complete hgood hmB
    unfold lastBoxStep
    rw [P3_new, Res.ok_bind,
      show permute B3 (P3 (six lp).1 (six lp).2) 6 swapColsInBand = _ from permute_swapColsInBand B3 2 _ _,
      ← hB, Res.ok_bind]
    have hmap2 : ∀ {γ : Type} (f : Vector UInt8 9 → Res γ),
        (do
          let m ← setDigit m B[6] 7
          let m ← setDigit m B[7] 8
          let m ← setDigit m B[8] 9
          f m) = f (digitVec (labelOf (bandRC B 0))) := by
      intro γ f
      rw [Res.bind3 (setDigit m B[6] 7) (fun m => setDigit m B[7] 8) (fun m => setDigit m B[8] 9) f, hmap, Res.ok_bind]
    rw [hmap2, bandValue_eq hgood, Res.ok_bind, fromChoices_eq, fromChoices_eq]
    have hl : (bandVal B (labelOf (bandRC B 0))).toList.length = st.minimum.toList.length := by simp
    unfold consider
    simp only [arrayCmp_gt hl, arrayCmp_lt hl]
    by_cases h1 : num st.minimum.toList < num (bandVal B (labelOf (bandRC B 0))).toList
    · rw [if_pos h1, if_pos h1]
    · rw [if_neg h1, if_neg h1]
      by_cases h2 : num (bandVal B (labelOf (bandRC B 0))).toList < num st.minimum.toList
      · rw [if_pos h2, if_pos h2, dif_pos (by simp)]
        rfl
      · rw [if_neg h2, if_neg h2]
        rfl

/-- The code's loop over the last permutation. -/
theorem lastLoop_eq {B3 : Vector UInt8 27} (h : GoodBand B3) (bandNr : Nat) (u : Bool) (f : Fin 3)
    (rp cp : Permutation3) (ch : Fin 2) (fc : Fin 3) (sc : Fin 2) (l : List (Fin 6)) (st : BandState)
    (m : Vector UInt8 9) (hm : GoodMapping B3 m) :
    ∃ m', (l.map Fin.val).foldlM (lastBoxStep bandNr u f rp cp ch fc sc B3) (st, m) =
      .ok (l.foldl (fun st lp => consider st
        (bandVal (rearr (bandMap id (inner 2 (perm3 (six lp).1 (six lp).2))) B3)
          (labelOf (bandRC (rearr (bandMap id (inner 2 (perm3 (six lp).1 (six lp).2))) B3) 0)))
        (bandTransformation bandNr u rp (P3 f ch) cp (P3 fc sc) (P3 (six lp).1 (six lp).2)
          (rearr (bandMap id (inner 2 (perm3 (six lp).1 (six lp).2))) B3))) st, m') := by
  induction l generalizing st m with
  | nil => exact ⟨m, rfl⟩
  | cons lp l ih =>
    obtain ⟨m', hm', e⟩ := lastBoxStep_eq h bandNr u f rp cp ch fc sc st m hm lp
    rw [List.map_cons, List.foldlM_cons, e, Res.ok_bind, List.foldl_cons]
    exact ih _ m' hm'

theorem initialMapping_fold {B : Vector UInt8 27} (h : GoodBand B) (l : List (Fin 9)) (hl : l.Nodup)
    (m : Vector UInt8 9) :
    ∃ m', (l.map Fin.val).foldlM (fun (m : Vector UInt8 9) k =>
        if h : k < 27 then setDigit m B[k] (UInt8.ofNat (k + 1)) else .panic) m = .ok m' ∧
      ∀ k : Fin 9, ∀ d : Fin 9, bandRC B 0 k = UInt8.ofNat (d.val + 1) →
        m'[d] = if k ∈ l then UInt8.ofNat (k.val + 1) else m[d] := by
  induction l generalizing m with
  | nil => exact ⟨m, rfl, fun k d _ => by simp⟩
  | cons a l ih =>
    have ha := (List.nodup_cons.mp hl).1
    have hinv := labelOf_inv (h.row_inj 0) (h.range 0)
    rw [List.map_cons, List.foldlM_cons, dif_pos (by omega : a.val < 27)]
    have e : B[a.val] = UInt8.ofNat (((labelOf (bandRC B 0))⁻¹ a).val + 1) := by
      rw [← hinv a]
      simp [bandRC]
    rw [e, setDigit_eq, Res.ok_bind]
    obtain ⟨m', hm', hs⟩ := ih (List.nodup_cons.mp hl).2 (m.set ((labelOf (bandRC B 0))⁻¹ a).val (UInt8.ofNat (a.val + 1)))
    refine ⟨m', hm', ?_⟩
    intro k d hd
    rw [hs k d hd]
    have hdk : (labelOf (bandRC B 0))⁻¹ k = d := by
      rw [hinv k] at hd
      exact ofNat_fin_inj hd
    by_cases hk : k = a
    · subst hk
      rw [if_neg ha, if_pos (by simp)]
      show (m.set _ _)[d.val] = _
      rw [Vector.getElem_set, if_pos (congrArg Fin.val hdk)]
    · by_cases hkl : k ∈ l
      · rw [if_pos hkl, if_pos (by simp [hkl])]
      · rw [if_neg hkl, if_neg (by simp [hkl, hk])]
        show (m.set _ _)[d.val] = m[d.val]
        rw [Vector.getElem_set, if_neg]
        intro e'
        apply hk
        have : (labelOf (bandRC B 0))⁻¹ a = d := Fin.ext e'
        exact (labelOf (bandRC B 0))⁻¹.injective (hdk.trans this.symm)

theorem initialMapping_eq {B : Vector UInt8 27} (h : GoodBand B) :
    ∃ m, (List.range 6).foldlM (fun (m : Vector UInt8 9) k =>
        if h : k < 27 then setDigit m B[k] (UInt8.ofNat (k + 1)) else .panic) (Vector.replicate 9 0) = .ok m ∧
      GoodMapping B m := by
  obtain ⟨m, hm, hs⟩ := initialMapping_fold h [0, 1, 2, 3, 4, 5] (by decide) (Vector.replicate 9 0)
  refine ⟨m, hm, ?_⟩
  intro k hk d hd
  rw [hs k d hd, if_pos]
  have : ∀ k : Fin 9, k.val < 6 → k ∈ ([0, 1, 2, 3, 4, 5] : List (Fin 9)) := by decide +kernel
  exact this k hk

/-- The columns when box `1 + ch` becomes the second one and its columns are permuted by `fc, sc`. -/
def secondCols (ch : Fin 2) (fc : Fin 3) (sc : Fin 2) : Equiv.Perm (Fin 9) :=
  lines (perm3 0 ch) (fun k => if k = 1 then perm3 fc sc else 1)

/-- The first row continues as the second begins. -/
def ValidChoice (B : Vector UInt8 27) (c : Fin 2 × Fin 3 × Fin 2) : Prop :=
  bandRC B 0 (secondCols c.1 c.2.1 c.2.2 3) = bandRC B 1 0 ∧
  bandRC B 0 (secondCols c.1 c.2.1 c.2.2 4) = bandRC B 1 1

instance (B : Vector UInt8 27) (c : Fin 2 × Fin 3 × Fin 2) : Decidable (ValidChoice B c) := by
  unfold ValidChoice; infer_instance

theorem secondCols_low : ∀ (ch : Fin 2) (fc : Fin 3) (sc : Fin 2) (x : Fin 9), x.val < 3 →
    secondCols ch fc sc x = x := by decide +kernel

theorem secondCols_3 : ∀ (ch : Fin 2) (fc : Fin 3) (sc : Fin 2),
    (secondCols ch fc sc 3).val = 3 * (1 + ch.val) + fc.val := by decide +kernel

theorem secondCols_4_ne : ∀ (ch : Fin 2) (fc : Fin 3) (sc sc' : Fin 2),
    secondCols ch fc sc 4 = secondCols ch fc sc' 4 → sc = sc' := by decide +kernel

theorem secondCols_eq : ∀ (ch : Fin 2) (fc : Fin 3) (sc : Fin 2) (x : Fin 9),
    chute (swp 1 ⟨1 + ch.val, by omega⟩) (swp 3 ⟨3 + fc.val, by omega⟩ (swp 4 ⟨4 + sc.val, by omega⟩ x)) =
      secondCols ch fc sc x := by decide +kernel

theorem secondCols_eq0 : ∀ (ch : Fin 2) (fc : Fin 3) (x : Fin 9),
    chute (swp 1 ⟨1 + ch.val, by omega⟩) (swp 3 ⟨3 + fc.val, by omega⟩ x) =
      secondCols ch fc 0 x := by decide +kernel

/-- All choices for the second box. -/
def allChoices : List (Fin 2 × Fin 3 × Fin 2) := (List.finRange 2) ×ˢ ((List.finRange 3) ×ˢ (List.finRange 2))

theorem mem_allChoices (c : Fin 2 × Fin 3 × Fin 2) : c ∈ allChoices := by
  revert c; decide +kernel

theorem nodup_allChoices : allChoices.Nodup := by decide +kernel

/-- What the code does for one arrangement of the first box: consider all candidates with a valid second box. -/
noncomputable def secondBoxFold (bandNr : Nat) (u : Bool) (f : Fin 3) (rp cp : Permutation3) (B1 : Vector UInt8 27)
    (st : BandState) (c : Fin 2 × Fin 3 × Fin 2) : BandState :=
  if ValidChoice B1 c then
    (List.finRange 6).foldl (fun st lp =>
      let B := rearr (bandMap id (secondCols c.1 c.2.1 c.2.2 ∘ inner 2 (perm3 (six lp).1 (six lp).2))) B1
      consider st (bandVal B (labelOf (bandRC B 0)))
        (bandTransformation bandNr u rp (P3 f c.1) cp (P3 c.2.1 c.2.2) (P3 (six lp).1 (six lp).2) B)) st
  else st

theorem foldl_unique {α β : Type} (f : β → α → β) (l : List α) (hl : l.Nodup) (a : α) (ha : a ∈ l)
    (h : ∀ s, ∀ x ∈ l, x ≠ a → f s x = s) (s : β) : l.foldl f s = f s a := by
  induction l generalizing s with
  | nil => simp at ha
  | cons x l ih =>
    have hx := (List.nodup_cons.mp hl).1
    rw [List.foldl_cons]
    by_cases hxa : x = a
    · subst hxa
      have : ∀ (l' : List α) (s : β), (∀ y ∈ l', y ∈ l) → l'.foldl f s = s := by
        intro l'
        induction l' with
        | nil => intro s _; rfl
        | cons y l' ih' =>
          intro s hy
          rw [List.foldl_cons, h s y (by simp [hy y (by simp)]) (by
            intro e; subst e; exact hx (hy _ (by simp)))]
          exact ih' s (fun z hz => hy z (by simp [hz]))
      exact this l _ (fun y hy => hy)
    · rw [h s x (by simp) hxa]
      refine ih (List.nodup_cons.mp hl).2 ?_ (fun s y hy => h s y (by simp [hy])) s
      simpa [Ne.symm hxa] using ha

theorem foldl_none {α β : Type} (f : β → α → β) (l : List α) (s : β)
    (h : ∀ x ∈ l, f s x = s) : l.foldl f s = s := by
  induction l with
  | nil => rfl
  | cons x l ih =>
    rw [List.foldl_cons, h x (by simp)]
    exact ih (fun y hy => h y (by simp [hy]))

/-- A candidate whose first compared digit is above that of the minimum is ignored. -/
theorem consider_pruned (st : BandState) (v : Vector UInt8 16) (t : MinBandTransformation)
    (h : st.minimum[0] < v[0]) : consider st v t = st := by
  unfold consider
  rw [if_pos]
  exact num_lt_of_prefix (by simp) 0 (by simp) (fun j hj => absurd hj (by omega)) (by simpa using h)

/-- If the third digit of the second row does not continue the first row, its label is above `6`. -/
theorem pruned_ge {B : Vector UInt8 27} (h : GoodBand B) (h30 : bandRC B 0 3 = bandRC B 1 0)
    (h41 : bandRC B 0 4 = bandRC B 1 1) (hp : bandRC B 1 2 ≠ bandRC B 0 5) :
    (6 : UInt8) < (bandVal B (labelOf (bandRC B 0)))[0] := by
  obtain ⟨c, hc⟩ := h.exists_col 0 (h.range 1 2)
  have e : (bandVal B (labelOf (bandRC B 0)))[0] = relabel (labelOf (bandRC B 0)) (bandRC B 1 2) := by
    unfold bandVal
    rw [Vector.getElem_ofFn]
    rfl
  rw [e, ← hc, labelOf_spec (h.row_inj 0) (h.range 0), UInt8.lt_iff_toNat_lt, toNat_ofNat_fin]
  have n012 : 3 ≤ c.val := by
    by_contra hcon
    exact h.box_ne 0 1 c 2 (by decide) (by have : (2 : Fin 9).val = 2 := rfl; omega) hc
  have n3 : c.val ≠ 3 := by
    intro e
    have : c = 3 := Fin.ext e
    rw [this, h30] at hc
    exact absurd (h.row_inj 1 hc) (by decide)
  have n4 : c.val ≠ 4 := by
    intro e
    have : c = 4 := Fin.ext e
    rw [this, h41] at hc
    exact absurd (h.row_inj 1 hc) (by decide)
  have n5 : c.val ≠ 5 := by
    intro e
    have : c = 5 := Fin.ext e
    rw [this] at hc
    exact hp hc.symm
  have : (6 : UInt8).toNat = 6 := rfl
  omega

set_option maxHeartbeats 1000000 in
theorem secondBoxStep_eq {B1 : Vector UInt8 27} (h : GoodBand B1) (bandNr : Nat) (u : Bool) (f : Fin 3)
    (rp cp : Permutation3) (st : BandState) :
    secondBoxStep bandNr u f rp cp B1 st = .ok (allChoices.foldl (secondBoxFold bandNr u f rp cp B1) st) := by
  -- the column of the first row that repeats the first digit of the second row
  obtain ⟨c4, hc4⟩ := h.exists_col 0 (h.range 1 0)
  have hc4' : 3 ≤ c4.val := by
    by_contra hcon
    exact h.box_ne 0 1 c4 0 (by decide) (by have : (0 : Fin 9).val = 0 := rfl; omega) hc4
  have e9 : B1[9] = bandRC B1 1 0 := rfl
  have hfind : ((B1.toList.drop 3).take 6).findIdx? (fun num => num == B1[9]) = some (c4.val - 3) := by
    rw [List.findIdx?_eq_some_iff_getElem]
    have hget : ∀ j (hj : j < ((B1.toList.drop 3).take 6).length),
        ((B1.toList.drop 3).take 6)[j] = bandRC B1 0 ⟨3 + j, by simp at hj; omega⟩ := by
      intro j hj
      simp [bandRC]
    refine ⟨by simp; omega, ?_, ?_⟩
    · rw [hget, e9, ← hc4, beq_iff_eq]
      congr 1
      apply Fin.ext
      simp only
      omega
    · intro j hj
      rw [hget, e9, ← hc4, beq_iff_eq]
      intro e
      have := congrArg Fin.val (h.row_inj 0 e)
      simp only at this
      omega
  set ch : Fin 2 := ⟨(c4.val - 3) / 3, by omega⟩ with hch
  set fc : Fin 3 := ⟨(c4.val - 3) % 3, by omega⟩ with hfc
  have hcol3 : ∀ sc, secondCols ch fc sc 3 = c4 := by
    intro sc
    apply Fin.ext
    rw [secondCols_3, hch, hfc]
    simp only
    omega
  have hvalid : ∀ c, ValidChoice B1 c → c.1 = ch ∧ c.2.1 = fc := by
    intro c hc
    have h3 := h.row_inj 0 (hc.1.trans hc4.symm)
    have h3 := congrArg Fin.val h3
    rw [secondCols_3] at h3
    constructor
    · apply Fin.ext; rw [hch]; simp only; omega
    · apply Fin.ext; rw [hfc]; simp only; omega
  set B2 := rearr (bandMap id (secondCols ch fc 0)) B1 with hB2
  have s1 := swapStackInBand_eq B1 1 ⟨1 + ch.val, by omega⟩
  have s2 := fun w : Vector UInt8 27 => swapColsInBand_eq w 3 ⟨3 + fc.val, by omega⟩
  have hs12 : ∀ {γ : Type} (k : Vector UInt8 27 → Res γ),
      (do
        let band ← swapStackInBand B1 1 (1 + (c4.val - 3) / 3)
        let band ← swapColsInBand band 3 (3 + (c4.val - 3) % 3)
        k band) = k B2 := by
    intro γ k
    rw [show swapStackInBand B1 1 (1 + (c4.val - 3) / 3) = _ from s1, Res.ok_bind,
      show swapColsInBand _ 3 (3 + (c4.val - 3) % 3) = _ from s2 _, Res.ok_bind, rearr_rearr, bandMap_comp]
    rw [hB2]
    have : chute (swp 1 ⟨1 + ch.val, by omega⟩) ∘ swp 3 ⟨3 + fc.val, by omega⟩ = secondCols ch fc 0 :=
      funext (secondCols_eq0 ch fc)
    rw [this]
    rfl
  have hB3 : ∀ sc : Fin 2, swapColsInBand B2 4 (4 + sc.val) = .ok (rearr (bandMap id (secondCols ch fc sc)) B1) := by
    intro sc
    rw [show swapColsInBand B2 4 (4 + sc.val) = _ from swapColsInBand_eq B2 4 ⟨4 + sc.val, by omega⟩, hB2,
      rearr_rearr, bandMap_comp]
    have : secondCols ch fc 0 ∘ swp 4 ⟨4 + sc.val, by omega⟩ = secondCols ch fc sc := by
      funext x
      rw [← secondCols_eq ch fc sc x, Function.comp_apply, ← secondCols_eq0]
    rw [this]
    rfl
  have hB4 : ∀ sc : Fin 2, (rearr (bandMap id (secondCols ch fc sc)) B1)[4] = bandRC B1 0 (secondCols ch fc sc 4) :=
    fun sc => bandRC_rearr id (secondCols ch fc sc) B1 0 4
  have hB10 : ∀ sc : Fin 2, (rearr (bandMap id (secondCols ch fc sc)) B1)[10] = bandRC B1 1 1 := by
    intro sc
    have := bandRC_rearr id (secondCols ch fc sc) B1 1 1
    rw [secondCols_low ch fc sc 1 (by decide)] at this
    exact this
  -- the choice of the code
  set sc : Fin 2 := if bandRC B1 0 (secondCols ch fc 0 4) ≠ bandRC B1 1 1 then 1 else 0 with hsc
  have hscN : (if B2[4] ≠ B2[10] then 1 else 0 : Nat) = sc.val := by
    have a1 : B2[4] = bandRC B1 0 (secondCols ch fc 0 4) := hB4 0
    have a2 : B2[10] = bandRC B1 1 1 := hB10 0
    rw [a1, a2, hsc]
    split <;> rfl
  unfold secondBoxStep
  simp only
  rw [hfind]
  simp only
  rw [hs12]
  rw [hscN, hB3, Res.ok_bind]
  have hdigit5 : B2[10] = bandRC B1 1 1 := hB10 0
  rw [hB4, hdigit5]
  by_cases hv : bandRC B1 0 (secondCols ch fc sc 4) = bandRC B1 1 1
  · -- exactly one valid choice
    have hvc : ValidChoice B1 (ch, fc, sc) := ⟨by simp only; rw [hcol3]; exact hc4, hv⟩
    have huniq : ∀ c, ValidChoice B1 c → c = (ch, fc, sc) := by
      intro c hc
      obtain ⟨c1, c2, c3⟩ := c
      have h12 := hvalid _ hc
      simp only at h12
      obtain ⟨rfl, rfl⟩ := h12
      have := h.row_inj 0 (hc.2.trans hv.symm)
      have e := secondCols_4_ne _ _ _ _ this
      simp only at e
      rw [e]
    rw [if_neg (by rw [not_not]; exact hv)]
    rw [foldl_unique _ _ nodup_allChoices (ch, fc, sc) (mem_allChoices _) (by
      intro s x _ hx
      unfold secondBoxFold
      rw [if_neg (fun hx' => hx (huniq x hx'))])]
    unfold secondBoxFold
    rw [if_pos hvc]
    simp only
    set B3 := rearr (bandMap id (secondCols ch fc sc)) B1 with hB3def
    have hgood3 : GoodBand B3 := h.rearr 1 _ (lines_keeps _ _)
    have hcomp : ∀ lp : Fin 6, rearr (bandMap id (inner 2 (perm3 (six lp).1 (six lp).2))) B3 =
        rearr (bandMap id (secondCols ch fc sc ∘ inner 2 (perm3 (six lp).1 (six lp).2))) B1 := by
      intro lp
      rw [hB3def, rearr_rearr, bandMap_comp]
      rfl
    by_cases hprune : st.minimum[0] = 6 ∧ B3[11] ≠ B3[5]
    · rw [if_pos hprune]
      refine congrArg Res.ok ?_
      symm
      apply foldl_none
      intro lp _
      rw [← hcomp lp]
      set B := rearr (bandMap id (inner 2 (perm3 (six lp).1 (six lp).2))) B3 with hB
      have hgood : GoodBand B := by
        rw [hB, inner2_lines]
        exact hgood3.rearr 1 _ (lines_keeps _ _)
      have hlow : ∀ (r : Fin 3) (k : Fin 9), k.val < 6 → bandRC B r k = bandRC B3 r k := by
        intro r k hk
        rw [hB, bandRC_rearr, inner2_low _ _ hk]
        rfl
      apply consider_pruned
      rw [hprune.1]
      have hp : bandRC B 1 2 ≠ bandRC B 0 5 := by
        rw [hlow 1 2 (by decide), hlow 0 5 (by decide)]
        exact hprune.2
      have h30 : bandRC B 0 3 = bandRC B 1 0 := by
        rw [hlow 0 3 (by decide), hlow 1 0 (by decide), hB3def, bandRC_rearr, bandRC_rearr,
          secondCols_low ch fc sc 0 (by decide), hcol3]
        exact hc4
      have h41 : bandRC B 0 4 = bandRC B 1 1 := by
        rw [hlow 0 4 (by decide), hlow 1 1 (by decide), hB3def, bandRC_rearr, bandRC_rearr,
          secondCols_low ch fc sc 1 (by decide)]
        exact hv
      exact pruned_ge hgood h30 h41 hp
    · rw [if_neg hprune]
      obtain ⟨m, hm, hmg⟩ := initialMapping_eq hgood3
      rw [hm, Res.ok_bind]
      obtain ⟨m', hl⟩ := lastLoop_eq hgood3 bandNr u f rp cp ch fc sc (List.finRange 6) st m hmg
      rw [show List.range 6 = (List.finRange 6).map Fin.val by decide]
      rw [show List.foldlM (lastBoxStep bandNr u f rp cp ((c4.val - 3) / 3) ((c4.val - 3) % 3) sc.val B3) (st, m) _ = _
        from hl, Res.ok_bind]
      simp only [hcomp]
  · rw [if_pos hv]
    refine congrArg Res.ok ?_
    symm
    apply foldl_none
    intro c _
    unfold secondBoxFold
    rw [if_neg]
    intro hc
    obtain ⟨c1, c2, c3⟩ := c
    have h12 := hvalid _ hc
    simp only at h12
    obtain ⟨rfl, rfl⟩ := h12
    apply hv
    have h2 := hc.2
    simp only at h2
    by_cases h0 : bandRC B1 0 (secondCols ch fc 0 4) = bandRC B1 1 1
    · rw [hsc, if_neg (by rw [not_not]; exact h0)]; exact h0
    · rw [hsc, if_pos h0]
      have : c3 = 1 := by
        rcases Fin.exists_fin_two.mp ⟨c3, rfl⟩ with h | h
        · exact absurd (h ▸ h2) h0
        · exact h
      rw [← this]; exact h2

end Verif.Canon
