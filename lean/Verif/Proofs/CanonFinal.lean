import Verif.Proofs.CanonMin
import Mathlib.Data.Set.Card

/-!
# `find_canonical_sudoku_and_transformation`
-/
namespace Verif.Canon

open Verif Sudoku

attribute [local irreducible] Cand.label labelOf allCands

/-! ## The fold -/

/-- What the search knows after the candidates `l`. -/
structure Found (S : Grid) (init : Vector UInt8 16) (l : List Cand) (st : BandState) : Prop where
  list : st.transformations =
    (l.filter (fun θ => decide (θ.Valid S ∧ θ.value S = st.minimum))).map (Cand.transformation S)
  le : ∀ θ ∈ l, θ.Valid S → num st.minimum.toList ≤ num (θ.value S).toList
  ex : st.minimum = init ∨ ∃ θ ∈ l, θ.Valid S ∧ θ.value S = st.minimum

theorem vec_num_inj {n : Nat} {v w : Vector UInt8 n} (h : num v.toList = num w.toList) : v = w :=
  Vector.toList_inj.mp (num_inj (by simp) h)

theorem found (S : Grid) (init : Vector UInt8 16) (l : List Cand) :
    Found S init l (l.foldl (step S) ⟨init, []⟩) := by
  induction l using List.reverseRecOn with
  | nil => exact ⟨rfl, fun _ h => by simp at h, Or.inl rfl⟩
  | append_singleton l θ ih =>
    rw [List.foldl_append, List.foldl_cons, List.foldl_nil]
    generalize l.foldl (step S) ⟨init, []⟩ = st at *
    unfold step
    by_cases hv : θ.Valid S
    · rw [if_pos hv]
      unfold consider
      by_cases h1 : num st.minimum.toList < num (θ.value S).toList
      · rw [if_pos h1]
        have hne : θ.value S ≠ st.minimum := by intro e; rw [e] at h1; omega
        refine ⟨?_, ?_, ?_⟩
        · rw [List.filter_append, List.filter_singleton]
          simp only [hne, and_false, decide_false, cond_false, List.append_nil]
          exact ih.list
        · intro θ' hθ' hv'
          rcases List.mem_append.mp hθ' with h | h
          · exact ih.le θ' h hv'
          · rw [List.mem_singleton.mp h]; omega
        · rcases ih.ex with h | ⟨θ', h, h'⟩
          · exact Or.inl h
          · exact Or.inr ⟨θ', by simp [h], h'⟩
      · rw [if_neg h1]
        by_cases h2 : num (θ.value S).toList < num st.minimum.toList
        · rw [if_pos h2]
          refine ⟨?_, ?_, Or.inr ⟨θ, by simp, hv, rfl⟩⟩
          · simp only
            rw [List.filter_append, List.filter_singleton]
            have : l.filter (fun θ' => decide (θ'.Valid S ∧ θ'.value S = θ.value S)) = [] := by
              rw [List.filter_eq_nil_iff]
              intro θ' h'
              simp only [decide_eq_true_eq]
              rintro ⟨hv', e⟩
              have := ih.le θ' h' hv'
              rw [e] at this
              omega
            rw [this]
            simp [hv]
          · intro θ' hθ' hv'
            rcases List.mem_append.mp hθ' with h | h
            · have := ih.le θ' h hv'
              simp only
              omega
            · rw [List.mem_singleton.mp h]
        · rw [if_neg h2]
          have he : θ.value S = st.minimum := vec_num_inj (by omega)
          refine ⟨?_, ?_, ?_⟩
          · simp only
            rw [List.filter_append, List.filter_singleton]
            simp only [hv, he, and_self, decide_true, cond_true, List.map_append, List.map_cons, List.map_nil]
            rw [ih.list]
          · intro θ' hθ' hv'
            rcases List.mem_append.mp hθ' with h | h
            · exact ih.le θ' h hv'
            · rw [List.mem_singleton.mp h, he]
          · exact Or.inr ⟨θ, by simp, hv, he⟩
    · rw [if_neg hv]
      refine ⟨?_, ?_, ?_⟩
      · rw [List.filter_append, List.filter_singleton]
        simp only [hv, false_and, decide_false, cond_false, List.append_nil]
        exact ih.list
      · intro θ' hθ' hv'
        rcases List.mem_append.mp hθ' with h | h
        · exact ih.le θ' h hv'
        · rw [List.mem_singleton.mp h] at hv'
          exact absurd hv' hv
      · rcases ih.ex with h | ⟨θ', h, h'⟩
        · exact Or.inl h
        · exact Or.inr ⟨θ', by simp [h], h'⟩

/-! ## Candidates and normal forms -/

theorem Normal.unique {S : Grid} {θ : Cand} {k k' : Choices} (hm : Matches S θ k) (hm' : Matches S θ k')
    (hn : Normal (act k.sym S)) (hn' : Normal (act k'.sym S)) : k.sym = k'.sym := by
  have hfix : ∀ r : Fin 3, (k.sym.rows⁻¹ * k'.sym.rows) ⟨r.val, by omega⟩ = ⟨r.val, by omega⟩ := by
    intro r
    rw [Equiv.Perm.mul_apply]
    have e : k'.sym.rows ⟨r.val, by omega⟩ = k.sym.rows ⟨r.val, by omega⟩ :=
      Fin.ext (by rw [rows_first hm.toPre, rows_first hm'.toPre])
    rw [e]
    simp
  obtain ⟨β, π, hl⟩ := exists_lines (KeepsChutes.mul (KeepsChutes.inv k.sym.rows_ok) k'.sym.rows_ok)
  rw [hl] at hfix
  have hval : ∀ r : Fin 3, 3 * (β 0).val + (π 0 r).val = r.val := by
    intro r
    have h1 := lines_apply β π 0 r
    simp only [Fin.val_zero, Nat.mul_zero, Nat.zero_add] at h1
    rw [← h1, hfix r]
  have hβ : β 0 = 0 := by
    apply Fin.ext
    have := hval 0
    have : (0 : Fin 3).val = 0 := rfl
    omega
  have hπ : π 0 = 1 := by
    ext r
    have := hval r
    rw [hβ] at this
    have e : (0 : Fin 3).val = 0 := rfl
    simp only [Equiv.Perm.coe_one, id]
    omega
  have hrows : k'.sym.rows = k.sym.rows * lines β π := by rw [← hl]; simp
  have hcols : k'.sym.cols = k.sym.cols := by rw [matches_cols hm.toPre, matches_cols hm'.toPre]
  have htr : k'.sym.transposed = k.sym.transposed := hm'.transposed.trans hm.transposed.symm
  have hdig : k'.sym.digits = k.sym.digits := hm'.digits.trans hm.digits.symm
  have hw : ∀ r, cellRC (act k'.sym S) r 0 = cellRC (act k.sym S) (lines β π r) 0 := by
    intro r
    rw [act_rc, act_rc, hrows, hcols, hdig, Equiv.Perm.mul_apply]
    rcases Bool.eq_false_or_eq_true k.sym.transposed with h | h
    · rw [h] at htr; simp [h, htr]
    · rw [h] at htr; simp [h, htr]
  have hone := sorted_unique (fun r => (cellRC (act k.sym S) r 0).toNat) β π hβ hπ
    (UInt8.lt_iff_toNat_lt.mp hn.s34) (UInt8.lt_iff_toNat_lt.mp hn.s45) (UInt8.lt_iff_toNat_lt.mp hn.s67)
    (UInt8.lt_iff_toNat_lt.mp hn.s78) (UInt8.lt_iff_toNat_lt.mp hn.s36)
    (by simp only [← hw]; exact UInt8.lt_iff_toNat_lt.mp hn'.s34)
    (by simp only [← hw]; exact UInt8.lt_iff_toNat_lt.mp hn'.s45)
    (by simp only [← hw]; exact UInt8.lt_iff_toNat_lt.mp hn'.s67)
    (by simp only [← hw]; exact UInt8.lt_iff_toNat_lt.mp hn'.s78)
    (by simp only [← hw]; exact UInt8.lt_iff_toNat_lt.mp hn'.s36)
  apply Sym.ext'
  · exact htr.symm
  · rw [hrows, hone, mul_one]
  · exact hcols.symm
  · exact hdig.symm

/-- Every complete choice belongs to a candidate. -/
theorem exists_pre (k : Choices) : ∃ θ : Cand, Choices.Pre θ k := by
  obtain ⟨rp, hrp⟩ := six_bijective.2 (k.row 0)
  obtain ⟨cp, hcp⟩ := six_bijective.2 (k.col 0)
  obtain ⟨lp, hlp⟩ := six_bijective.2 (k.col 2)
  refine ⟨(k.transposed, k.band.1, k.stack.1, rp, cp, (k.stack.2, k.col 1), lp), ?_⟩
  refine ⟨rfl, rfl, hrp.symm, rfl, ?_⟩
  funext j
  match j with
  | 0 => exact hcp.symm
  | 1 => rfl
  | 2 => exact hlp.symm

theorem pre_inj {θ θ' : Cand} {k : Choices} (h : Choices.Pre θ k) (h' : Choices.Pre θ' k) : θ = θ' := by
  obtain ⟨u, b, f, rp, cp, ⟨ch, fs⟩, lp⟩ := θ
  obtain ⟨u', b', f', rp', cp', ⟨ch', fs'⟩, lp'⟩ := θ'
  have e1 : u = u' := h.transposed.symm.trans h'.transposed
  have e2 : b = b' := h.band.symm.trans h'.band
  have e3 : six rp = six rp' := h.row.symm.trans h'.row
  have e4 : (f, ch) = (f', ch') := h.stack.symm.trans h'.stack
  have e5 := h.col.symm.trans h'.col
  have e6 : six cp = six cp' := congrFun e5 0
  have e7 : fs = fs' := congrFun e5 1
  have e8 : six lp = six lp' := congrFun e5 2
  have e3 := six_bijective.1 e3
  have e6 := six_bijective.1 e6
  have e8 := six_bijective.1 e8
  obtain ⟨rfl, rfl⟩ := Prod.mk.inj e4
  subst e1 e2 e3 e6 e7 e8
  rfl

/-- Every transformation to a normal form belongs to a valid candidate. -/
theorem exists_matches {S : Grid} (hS : Solved S) {k : Choices} (hn : Normal (act k.sym S)) :
    ∃ θ : Cand, θ.Valid S ∧ Matches S θ k := by
  obtain ⟨θ, hpre⟩ := exists_pre k
  have f0 : ∀ c, cellRC (act k.sym S) 0 c = _ := act_pre (S := S) hpre 0
  have f1 : ∀ c, cellRC (act k.sym S) 1 c = _ := act_pre (S := S) hpre 1
  have hgood := θ.good hS
  have hd : k.digits = θ.label S := by
    apply relabel_unique _ (hgood.row_inj 0) (hgood.range 0)
    intro c
    rw [← f0, hn.first, θ.label_spec hS]
  refine ⟨θ, ⟨?_, ?_⟩, hpre, hd⟩
  · apply relabel_injective k.digits
    rw [← f0, ← f1, hn.first, hn.four]
    rfl
  · apply relabel_injective k.digits
    rw [← f0, ← f1, hn.first, hn.five]
    rfl

/-- The complete choice the code makes for a valid candidate. -/
noncomputable def Cand.best (S : Grid) (θ : Cand) : Choices := by
  classical
  exact if h : ∃ k : Choices, Matches S θ k ∧ Normal (act k.sym S) ∧
      findMinimalForBand S (θ.transformation S) = .ok (act k.sym S, k.transformation) then h.choose
    else ⟨false, (0, 0), (0, 0), fun _ => (0, 0), fun _ => (0, 0), 1⟩

theorem Cand.best_spec {S : Grid} (hS : Solved S) (θ : Cand) (hθ : θ.Valid S) :
    Matches S θ (θ.best S) ∧ Normal (act (θ.best S).sym S) ∧
      findMinimalForBand S (θ.transformation S) = .ok (act (θ.best S).sym S, (θ.best S).transformation) := by
  unfold Cand.best
  rw [dif_pos (findMinimal_eq hS θ hθ)]
  exact (findMinimal_eq hS θ hθ).choose_spec

/-- Different valid candidates lead to different transformations. -/
theorem Cand.best_inj {S : Grid} (hS : Solved S) {θ θ' : Cand} (h : θ.Valid S) (h' : θ'.Valid S)
    (e : (θ.best S).sym = (θ'.best S).sym) : θ = θ' := by
  have e := Choices.sym_bijective.1 e
  have h1 := (θ.best_spec hS h).1.toPre
  have h2 := (θ'.best_spec hS h').1.toPre
  rw [← e] at h2
  exact pre_inj h1 h2

/-- Every transformation to a normal form is made by a valid candidate. -/
theorem Cand.best_surj {S : Grid} (hS : Solved S) {T : Sym} (hn : Normal (act T S)) :
    ∃ θ : Cand, θ.Valid S ∧ (θ.best S).sym = T := by
  obtain ⟨k, rfl⟩ := Choices.sym_bijective.2 T
  obtain ⟨θ, hv, hm⟩ := exists_matches hS hn
  obtain ⟨hm', hn', _⟩ := θ.best_spec hS hv
  exact ⟨θ, hv, Normal.unique hm' hm hn' hn⟩

/-! ## Comparing -/

theorem Normal.take {G G' : Grid} (h : Normal G) (h' : Normal G') : G.toList.take 11 = G'.toList.take 11 := by
  apply List.ext_getElem
  · simp
  · intro i h1 h2
    simp only [List.length_take, Vector.length_toList] at h1
    simp only [List.getElem_take, Vector.getElem_toList]
    have a0 : ∀ c : Fin 9, cellRC G 0 c = cellRC G' 0 c := fun c => by rw [h.first, h'.first]
    by_cases h9 : i < 9
    · have := a0 ⟨i, h9⟩
      simpa [cellRC] using this
    · have e : i = 9 ∨ i = 10 := by omega
      rcases e with rfl | rfl
      · exact h.four.trans h'.four.symm
      · exact h.five.trans h'.five.symm

theorem value_eq {S : Grid} {θ : Cand} {k : Choices} (h : Matches S θ k) :
    ((act k.sym S).toList.drop 11).take 16 = (θ.value S).toList := by
  apply List.ext_getElem
  · simp
  · intro i h1 h2
    simp only [Vector.length_toList] at h2
    simp only [List.getElem_take, List.getElem_drop, Vector.getElem_toList]
    have := act_first h ⟨(11 + i) / 9, by omega⟩ ⟨(11 + i) % 9, by omega⟩
    unfold cellRC bandRC at this
    have e : 9 * ((11 + i) / 9) + (11 + i) % 9 = 11 + i := by omega
    simp only [e] at this
    rw [this]
    unfold Cand.value bandVal
    rw [Vector.getElem_ofFn]

theorem gnum_split (G : Grid) : gnum G = num (G.toList.take 11 ++ ((G.toList.drop 11).take 16 ++ G.toList.drop 27)) := by
  unfold gnum
  congr 1
  have h1 : (G.toList.drop 11).take 16 ++ G.toList.drop 27 = G.toList.drop 11 := by
    have : G.toList.drop 27 = (G.toList.drop 11).drop 16 := by rw [List.drop_drop]
    rw [this, List.take_append_drop]
  rw [h1, List.take_append_drop]

theorem num_prefix_lt {a x y : List UInt8} (hl : x.length = y.length) (h : num x < num y) :
    num (a ++ x) < num (a ++ y) := by
  rw [num_append, num_append, hl]
  omega

theorem gnum_lt_of_value {S : Grid} {θ θ' : Cand} {k k' : Choices} (h : Matches S θ k) (h' : Matches S θ' k')
    (hn : Normal (act k.sym S)) (hn' : Normal (act k'.sym S))
    (hlt : num (θ.value S).toList < num (θ'.value S).toList) : gnum (act k.sym S) < gnum (act k'.sym S) := by
  rw [gnum_split, gnum_split, Normal.take hn hn', value_eq h, value_eq h']
  exact num_prefix_lt (by simp) (num_append_lt (by simp) hlt)

theorem num_le_of_le {a b : List UInt8} (hl : a.length = b.length)
    (h : ∀ i (hi : i < a.length), a[i] ≤ b[i]'(by omega)) : num a ≤ num b := by
  induction a generalizing b with
  | nil =>
    cases b with
    | nil => exact Nat.le_refl _
    | cons y ys => simp at hl
  | cons x xs ih =>
    cases b with
    | nil => simp at hl
    | cons y ys =>
      have hl' : xs.length = ys.length := by simpa using hl
      have h0 := UInt8.le_iff_toNat_le.mp (h 0 (by simp))
      simp only [List.getElem_cons_zero] at h0
      have h1 := ih hl' (fun i hi => by
        have := h (i + 1) (by simp; omega)
        simpa using this)
      simp only [num, hl']
      have := Nat.mul_le_mul_right (256 ^ ys.length) h0
      omega

theorem value_le {S : Grid} (hS : Solved S) (θ : Cand) :
    num (θ.value S).toList ≤ num (Vector.replicate 16 (9 : UInt8)).toList := by
  apply num_le_of_le (by simp)
  intro i hi
  simp only [Vector.length_toList] at hi
  simp only [Vector.getElem_toList, Vector.getElem_replicate]
  unfold Cand.value bandVal
  rw [Vector.getElem_ofFn]
  exact relabel_le _ ((θ.good hS).get (11 + i) (by omega)).2

/-! ## The counting minimum -/

theorem minByCount_spec (xs : List (Grid × Transformation)) (best : Grid × Transformation) (count : Nat) :
    let r := minByCount xs best count
    (r.1 ∈ best :: xs) ∧ (∀ x ∈ best :: xs, gnum r.1.1 ≤ gnum x.1) ∧
    r.2 = (if r.1.1 = best.1 then count else 0) + xs.countP (fun x => decide (x.1 = r.1.1)) := by
  induction xs generalizing best count with
  | nil => simp [minByCount]
  | cons x xs ih =>
    simp only
    unfold minByCount
    rw [cmp_eq_compare]
    rcases Nat.lt_trichotomy (gnum best.1) (gnum x.1) with h | h | h
    · rw [Nat.compare_eq_lt.mpr h]
      obtain ⟨h1, h2, h3⟩ := ih best count
      have hb := h2 best (by simp)
      refine ⟨?_, ?_, ?_⟩
      · rcases List.mem_cons.mp h1 with e | e
        · rw [e]; simp
        · simp [e]
      · intro y hy
        rcases List.mem_cons.mp hy with rfl | hy
        · exact hb
        · rcases List.mem_cons.mp hy with rfl | hy
          · simp only; omega
          · exact h2 y (by simp [hy])
      · simp only
        have hne : x.1 ≠ (minByCount xs best count).1.1 := by
          intro e
          rw [e] at h
          omega
        rw [List.countP_cons_of_neg (by simpa using hne)]
        exact h3
    · rw [Nat.compare_eq_eq.mpr h]
      have hx : best.1 = x.1 := gnum_inj h
      obtain ⟨h1, h2, h3⟩ := ih best (count + 1)
      have hb := h2 best (by simp)
      refine ⟨?_, ?_, ?_⟩
      · rcases List.mem_cons.mp h1 with e | e
        · rw [e]; simp
        · simp [e]
      · intro y hy
        rcases List.mem_cons.mp hy with rfl | hy
        · exact hb
        · rcases List.mem_cons.mp hy with rfl | hy
          · simp only; omega
          · exact h2 y (by simp [hy])
      · simp only
        rw [h3, List.countP_cons]
        by_cases he : (minByCount xs best (count + 1)).1.1 = best.1
        · have he' : x.1 = (minByCount xs best (count + 1)).1.1 := by rw [he, hx]
          simp only [he, if_true, ← hx, decide_true]
          omega
        · have he' : ¬ x.1 = (minByCount xs best (count + 1)).1.1 := by rw [← hx]; exact fun e => he e.symm
          simp only [he, he', if_false, decide_false, Bool.false_eq_true]
          omega
    · rw [Nat.compare_eq_gt.mpr h]
      obtain ⟨h1, h2, h3⟩ := ih x 1
      have hb := h2 x (by simp)
      refine ⟨?_, ?_, ?_⟩
      · exact List.mem_cons_of_mem _ h1
      · intro y hy
        rcases List.mem_cons.mp hy with rfl | hy
        · simp only; omega
        · exact h2 y hy
      · simp only
        have hne : ¬ (minByCount xs x 1).1.1 = best.1 := by
          intro e
          rw [e] at hb
          omega
        rw [h3, List.countP_cons, if_neg hne]
        by_cases he : (minByCount xs x 1).1.1 = x.1
        · simp only [he, if_true, decide_true]
          omega
        · have he' : ¬ x.1 = (minByCount xs x 1).1.1 := fun e => he e.symm
          simp only [he, he', if_false, decide_false, Bool.false_eq_true]
          omega

theorem pick_eq {α : Type} (L : List α) (f : α → Grid × Transformation) (hne : L ≠ []) :
    ∃ a ∈ L, (match L.map f with
      | [] => Res.panic
      | x :: xs =>
        let r := minByCount xs x 1
        Res.ok (r.1.1, r.1.2, r.2)) =
        .ok ((f a).1, (f a).2, (L.filter (fun b => decide ((f b).1 = (f a).1))).length) ∧
      ∀ b ∈ L, gnum (f a).1 ≤ gnum (f b).1 := by
  cases L with
  | nil => exact absurd rfl hne
  | cons x xs =>
    have h := minByCount_spec (xs.map f) (f x) 1
    simp only at h
    obtain ⟨h1, h2, h3⟩ := h
    rw [← List.map_cons, List.mem_map] at h1
    obtain ⟨a, ha, he⟩ := h1
    refine ⟨a, ha, ?_, ?_⟩
    · simp only [List.map_cons]
      rw [he, h3]
      refine congrArg Res.ok (Prod.ext rfl (Prod.ext rfl ?_))
      simp only
      rw [← List.countP_eq_length_filter, List.countP_cons, List.countP_map]
      simp only [decide_eq_true_eq, eq_comm (a := (f x).1)]
      rw [Nat.add_comm]
      rfl
    · intro b hb
      rw [he]
      apply h2
      rw [← List.map_cons]
      exact List.mem_map_of_mem hb

/-! ## The result -/

/-- The smallest board that can be reached. -/
theorem exists_minimal (S : Grid) : ∃ T : Sym, ∀ U : Sym, gnum (act T S) ≤ gnum (act U S) := by
  classical
  have hex : ∃ n, ∃ T : Sym, gnum (act T S) = n := ⟨_, Sym.one, rfl⟩
  obtain ⟨T, hT⟩ := Nat.find_spec hex
  refine ⟨T, fun U => ?_⟩
  rw [hT]
  exact Nat.find_min' hex ⟨U, rfl⟩

theorem minimal_normal {S : Grid} (hS : Solved S) {T : Sym} (h : ∀ U : Sym, gnum (act T S) ≤ gnum (act U S)) :
    Normal (act T S) := by
  apply Minimal.normal (solved_act_of T hS)
  intro U
  rw [← act_after]
  exact h _

set_option maxHeartbeats 400000 in
theorem findCanonical_eq {S : Grid} (hS : Solved S) :
    ∃ k : Choices, ∃ n : Nat, findCanonical S = .ok (act k.sym S, k.transformation, n) ∧
      (∀ U : Sym, gnum (act k.sym S) ≤ gnum (act U S)) ∧
      n = Set.ncard {T : Sym | act T S = act k.sym S} := by
  classical
  unfold findCanonical
  rw [search_eq hS, Res.ok_bind]
  have hf := found S (Vector.replicate 16 9) allCands
  generalize allCands.foldl (step S) ⟨Vector.replicate 16 9, []⟩ = st at hf ⊢
  -- the candidates with the minimal band
  set L := allCands.filter (fun θ => decide (θ.Valid S ∧ θ.value S = st.minimum)) with hL
  have hLmem : ∀ θ, θ ∈ L ↔ θ.Valid S ∧ θ.value S = st.minimum := by
    intro θ
    rw [hL, List.mem_filter]
    simp [mem_allCands]
  have hLnodup : L.Nodup := nodup_allCands.filter _
  have hmap : st.transformations.mapM (findMinimalForBand S) =
      .ok (L.map (fun θ => (act (θ.best S).sym S, (θ.best S).transformation))) := by
    rw [hf.list, List.mapM_map]
    apply mapM_ok
    intro θ hθ
    exact (θ.best_spec hS ((hLmem θ).mp hθ).1).2.2
  rw [hmap, Res.ok_bind]
  -- every transformation to the smallest board is found
  have hmin : ∀ T : Sym, (∀ U : Sym, gnum (act T S) ≤ gnum (act U S)) → ∃ θ ∈ L, (θ.best S).sym = T := by
    intro T hT
    obtain ⟨θ, hv, he⟩ := Cand.best_surj hS (minimal_normal hS hT)
    refine ⟨θ, ?_, he⟩
    rw [hLmem]
    refine ⟨hv, ?_⟩
    apply vec_num_inj
    have hle := hf.le θ (mem_allCands θ) hv
    rcases hf.ex with hi | ⟨θ', _, hv', hval⟩
    · rw [hi] at hle ⊢
      have := value_le hS θ
      omega
    · by_contra hne
      have hlt : num (θ'.value S).toList < num (θ.value S).toList := by rw [hval]; omega
      obtain ⟨m1, n1, _⟩ := θ.best_spec hS hv
      obtain ⟨m2, n2, _⟩ := θ'.best_spec hS hv'
      have := gnum_lt_of_value m2 m1 n2 n1 hlt
      rw [he] at this
      have := hT (θ'.best S).sym
      omega
  obtain ⟨T0, hT0⟩ := exists_minimal S
  obtain ⟨θ0, hθ0, hbest0⟩ := hmin T0 hT0
  obtain ⟨θ, hθ, hcode, hle⟩ := pick_eq L (fun θ => (act (θ.best S).sym S, (θ.best S).transformation))
    (List.ne_nil_of_mem hθ0)
  have hbest : ∀ U : Sym, gnum (act (θ.best S).sym S) ≤ gnum (act U S) := by
    intro U
    have h1 := hle θ0 hθ0
    simp only [hbest0] at h1
    exact h1.trans (hT0 U)
  refine ⟨θ.best S, _, hcode, hbest, ?_⟩
  have hset : {T : Sym | act T S = act (θ.best S).sym S} =
      ↑((L.filter (fun b => decide (act (b.best S).sym S = act (θ.best S).sym S))).map
        (fun b => (b.best S).sym)).toFinset := by
    ext T
    simp only [Set.mem_setOf_eq, List.coe_toFinset, List.mem_map, List.mem_filter, decide_eq_true_eq]
    constructor
    · intro hT
      obtain ⟨b, hb, he⟩ := hmin T (by rw [hT]; exact hbest)
      exact ⟨b, ⟨hb, by rw [he]; exact hT⟩, he⟩
    · rintro ⟨b, ⟨_, hb⟩, rfl⟩
      exact hb
  rw [hset, Set.ncard_coe_finset, List.toFinset_card_of_nodup, List.length_map]
  apply List.Nodup.map_on
  · intro a ha b hb e
    have ha' := (hLmem a).mp (List.mem_filter.mp ha).1
    have hb' := (hLmem b).mp (List.mem_filter.mp hb).1
    exact Cand.best_inj hS ha'.1 hb'.1 e
  · exact hLnodup.filter _

/-- As many transformations lead to the canonical form as leave the board unchanged. -/
theorem ncard_fixing (S : Grid) (T0 : Sym) :
    Set.ncard {T : Sym | act T S = act T0 S} = Set.ncard {T : Sym | act T S = S} := by
  have h : {T : Sym | act T S = act T0 S} = (fun T => T0.after T) '' {T : Sym | act T S = S} := by
    ext T
    simp only [Set.mem_setOf_eq, Set.mem_image]
    constructor
    · intro hT
      refine ⟨T0.inv.after T, ?_, ?_⟩
      · rw [act_after, hT, act_inv_act]
      · rw [← Sym.after_assoc, Sym.after_inv, Sym.one_after]
    · rintro ⟨U, hU, rfl⟩
      rw [act_after, hU]
  rw [h]
  apply Set.ncard_image_of_injective
  intro U V e
  have := congrArg (fun X => T0.inv.after X) e
  simpa only [← Sym.after_assoc, Sym.inv_after, Sym.one_after] using this

end Verif.Canon
