import Verif.Proofs.GenInv

/-!
# Inserting entries: `insert_entries_singly`, `batch_insert_entries`, `insert_entries`
-/
namespace Verif.Generator

open Sudoku Bitset

attribute [local irreducible] size

theorem neighbors_iff : ∀ c c' : Fin 81, c' ∈ Pos.neighbors c ↔ c' ≠ c ∧ SameHouse c c' := by decide +kernel

theorem SameHouse.symm' {c c' : Nat} (h : SameHouse c c') : SameHouse c' c := by
  rcases h with h | h | h
  · exact Or.inl h.symm
  · exact Or.inr (Or.inl h.symm)
  · exact Or.inr (Or.inr h.symm)

/-- A later state: same or more entries, compatible with the same grids. -/
structure Later (s s' : Gen) : Prop where
  inv : Inv s'
  ext : Extends s.grid s'.grid
  size : size s' ≤ size s
  last : s'.last = s.last

theorem Extends.refl' (g : Grid) : Extends g g := fun _ _ => rfl
theorem Extends.trans' {a b c : Grid} (h : Extends a b) (h' : Extends b c) : Extends a c := by
  intro x hx
  have := h x hx
  rw [← this]
  exact h' x (by rw [this]; exact hx)

theorem Later.refl {s : Gen} (h : Inv s) : Later s s := ⟨h, Extends.refl' _, Nat.le_refl _, rfl⟩
theorem Later.trans {a b c : Gen} (h : Later a b) (h' : Later b c) : Later a c :=
  ⟨h'.inv, Extends.trans' h.ext h'.ext, Nat.le_trans h'.size h.size, h'.last.trans h.last⟩

/-- The loop over the neighbours of a cell that was just filled with `d`. -/
theorem removeFromNeighbors_spec {s : Gen} (hi : Inv s) (d : Digit) (c0 : Fin 81) (hc0 : s.grid[c0] = d.get)
    (mask : DigitSet) (hm : ∀ j, mask.getLsbD j = true ↔ j = d.val) (stack : List Candidate) (cells : List (Fin 81))
    (hcells : ∀ c ∈ cells, c ≠ c0 ∧ SameHouse c0 c) :
    Res.Post (s.removeFromNeighbors mask stack cells)
      (fun r => Inv r.1 ∧ r.1.grid = s.grid ∧ r.1.last = s.last ∧
        (∀ (x : Fin 81) (i : Nat), r.1.poss[x].getLsbD i = true → s.poss[x].getLsbD i = true) ∧
        (∀ c ∈ cells, r.1.poss[c].getLsbD d.val = false) ∧
        (∀ t, Sat s t → StackSat stack t → Sat r.1 t ∧ StackSat r.2 t) ∧
        size r.1 + r.2.length ≤ size s + stack.length)
      (∀ t, ¬ Sat s t) := by
  unfold Gen.removeFromNeighbors
  refine Res.Post.mono (Res.Post.foldlM (E := ∀ t, ¬ Sat s t)
    (fun rest (r : Gen × List Candidate) => (∀ c ∈ rest, c ∈ cells) ∧ Inv r.1 ∧ r.1.grid = s.grid ∧
        r.1.last = s.last ∧
        (∀ (x : Fin 81) (i : Nat), r.1.poss[x].getLsbD i = true → s.poss[x].getLsbD i = true) ∧
        (∀ c ∈ cells, c ∉ rest → r.1.poss[c].getLsbD d.val = false) ∧
        (∀ t, Sat s t → StackSat stack t → Sat r.1 t ∧ StackSat r.2 t) ∧
        (∀ t, Sat s t → Sat r.1 t) ∧
        size r.1 + r.2.length ≤ size s + stack.length) cells (s, stack) ?_ ?_) ?_ ?_
  · exact ⟨fun _ h => h, hi, rfl, rfl, fun _ _ h => h, fun _ h h' => absurd h h', fun _ h h' => ⟨h, h'⟩, fun _ h => h,
      Nat.le_refl _⟩
  · rintro c rest ⟨s1, st1⟩ ⟨hrest, h1, h2, h3, h4, h5, h6, h6', h7⟩
    simp only at h1 h2 h3 h4 h5 h6 h7 ⊢
    have hcc := hcells c (hrest c (by simp))
    by_cases ho : overlaps mask s1.poss[c] = true
    · rw [if_pos ho]
      obtain ⟨i, hi1, hi2⟩ := overlaps_iff.mp ho
      have hid := (hm i).mp hi1
      subst hid
      have hopen : s1.grid[c] = 0 := by
        by_contra hne
        rw [h1.empty c hne] at hi2
        simp at hi2
      -- compatible grids have no `d` in this cell
      have hnot : ∀ t, Sat s t → ∀ e : Digit, t[c] = e.get → mask.getLsbD e.val = false := by
        intro t ht e he
        by_contra hc
        rw [Bool.not_eq_false] at hc
        have := (hm _).mp hc
        have hed : e = d := Fin.ext this
        subst hed
        have h0 := (ht.2 c0).1 (by rw [hc0]; exact Digit.get_ne_zero _)
        rw [hc0] at h0
        exact ht.1.2 c0 c (Ne.symm hcc.1) hcc.2 (by rw [h0, he])
      refine Res.Post.mono (remove_spec h1 hopen mask st1) ?_ ?_
      · rintro ⟨s2, st2⟩ ⟨e1, e2, e3⟩
        simp only at e1 e2 e3 ⊢
        subst e1
        have hsub := withPoss_sub s1 c mask
        have hlt : size (withPoss s1 c (without s1.poss[c] mask)) < size s1 := by
          refine size_lt hsub c d.val hi2 ?_
          rw [withPoss_get, if_pos rfl, bit_without, hi1]
          simp
        refine ⟨fun x hx => hrest x (by simp [hx]), e2, h2, h3, fun x i h => h4 x i (hsub x i h), ?_, ?_, ?_, ?_⟩
        · intro x hx hxr
          by_cases ex : c = x
          · subst ex
            rw [withPoss_get, if_pos rfl, bit_without, hi1]
            simp
          · rw [withPoss_get, if_neg ex]
            exact h5 x hx (by simp only [List.mem_cons, not_or]; exact ⟨fun h => ex h.symm, hxr⟩)
        · intro t ht hst
          obtain ⟨a1, a2⟩ := h6 t ht hst
          have a3 := withPoss_sat a1 (hnot t ht)
          refine ⟨a3, ?_⟩
          rcases e3 with rfl | ⟨d', rfl, hd'⟩
          · exact a2
          · intro y hy
            rcases List.mem_cons.mp hy with rfl | hy
            · obtain ⟨e, b1, b2⟩ := (a3.2 c).2 hopen
              rw [withPoss_get, if_pos rfl] at b2
              have := (hd' _).mp b2
              have : e = d' := Fin.ext this
              subst this
              exact b1
            · exact a2 y hy
        · intro t ht
          exact withPoss_sat (h6' t ht) (hnot t ht)
        · rcases e3 with rfl | ⟨d', rfl, _⟩
          · omega
          · rw [List.length_cons]; omega
      · intro hz t ht
        obtain ⟨e, b1, b2⟩ := ((h6' t ht).2 c).2 hopen
        have b3 := hnot t ht e b1
        have : (without s1.poss[c] mask).getLsbD e.val = true := by rw [bit_without, b2, b3]; rfl
        rw [hz] at this
        simp at this
    · rw [if_neg ho]
      refine ⟨fun x hx => hrest x (by simp [hx]), h1, h2, h3, h4, ?_, h6, h6', h7⟩
      intro x hx hxr
      by_cases ex : x = c
      · subst ex
        by_contra hc
        rw [Bool.not_eq_false] at hc
        exact ho (overlaps_iff.mpr ⟨d.val, (hm _).mpr rfl, hc⟩)
      · exact h5 x hx (by simp only [List.mem_cons, not_or]; exact ⟨ex, hxr⟩)
  · rintro ⟨s1, st1⟩ ⟨_, h1, h2, h3, h4, h5, h6, _, h7⟩
    exact ⟨h1, h2, h3, h4, fun c hc => h5 c hc (by simp), h6, h7⟩
  · exact id

theorem isEmpty_poss {s : Gen} (hi : Inv s) (c : Fin 81) : isEmpty s.poss[c] = true ↔ s.grid[c] ≠ 0 := by
  rw [isEmpty_iff (by omega)]
  constructor
  · intro h h0
    exact hi.opn c h0 h
  · exact hi.empty c

/-- Result of inserting a stack of entries. -/
def Inserted (s : Gen) (stack : List Candidate) (r : Gen × List Candidate) : Prop :=
  Later s r.1 ∧ Fresh r.1 ∧ (∀ t, Sat s t → StackSat stack t → Sat r.1 t ∧ StackSat r.2 t) ∧
    (stack ≠ [] → AllOpen s stack → size r.1 < size s)

theorem insertSingly_spec : ∀ (fuel : Nat) (s : Gen) (stack : List Candidate), Inv s → Fresh s →
    size s + stack.length < fuel →
    Res.Post (Gen.insertSingly fuel s stack)
      (fun r => Inserted s stack r ∧ (r.2 = [] ∨ size r.1 < size s))
      (∀ t, Sat s t → ¬ StackSat stack t) := by
  intro fuel
  induction fuel with
  | zero => intro s stack _ _ h; omega
  | succ fuel ih =>
    intro s stack hi hfr hfuel
    cases stack with
    | nil =>
      refine ⟨⟨Later.refl hi, hfr, fun t h h' => ⟨h, h'⟩, fun h => absurd rfl h⟩, Or.inl rfl⟩
    | cons entry stack =>
      rw [List.length_cons] at hfuel
      unfold Gen.insertSingly
      by_cases h1 : isEmpty s.poss[entry.cell] = true
      · rw [if_pos h1]
        refine Res.Post.mono (ih s stack hi hfr (by omega)) ?_ ?_
        · rintro ⟨s', st'⟩ ⟨⟨a1, a2, a3, a4⟩, a5⟩
          refine ⟨⟨a1, a2, fun t h h' => a3 t h (fun e he => h' e (by simp [he])), fun _ hao => ?_⟩, a5⟩
          exact absurd (hao entry (by simp)) ((isEmpty_poss hi _).mp h1)
        · intro h t ht hst
          exact h t ht (fun e he => hst e (by simp [he]))
      · rw [if_neg h1]
        have hopen : s.grid[entry.cell] = 0 := by
          by_contra hne
          exact h1 ((isEmpty_poss hi _).mpr hne)
        by_cases h2 : isEmpty (inter s.poss[entry.cell] entry.digitSet) = true
        · rw [if_pos h2]
          intro t ht hst
          obtain ⟨d, b1, b2⟩ := (ht.2 entry.cell).2 hopen
          have b3 := hst entry (by simp)
          rw [b1] at b3
          have b3 := Digit.get_inj b3
          subst b3
          rw [isEmpty_iff (by omega), eq_zero_iff] at h2
          have := h2 entry.digit.val
          rw [bit_inter, b2, (digitSet_get _ _).mpr rfl] at this
          cases this
        · rw [if_neg h2]
          have hposs : s.poss[entry.cell].getLsbD entry.digit.val = true := by
            rw [isEmpty_iff (by omega)] at h2
            obtain ⟨i, hb⟩ := ne_zero_iff.mp h2
            rw [bit_inter, Bool.and_eq_true, digitSet_get] at hb
            rw [← hb.2]; exact hb.1
          obtain ⟨s1, e1, i1, g1, p1, l1⟩ := insertEntry_spec hi hopen (by
            intro c' hne hs hc'
            have := hfr c' entry.cell entry.digit (Ne.symm hne) (SameHouse.symm' hs) hc'
            rw [hposs] at this
            cases this)
          rw [e1, Res.ok_bind]
          have hsz := insertEntry_size hi p1 hopen
          have hc0 : s1.grid[entry.cell] = entry.digit.get := by rw [g1, get_set_fin, if_pos rfl]
          have hext := insertEntry_extends g1 hopen
          have hstep := removeFromNeighbors_spec i1 entry.digit entry.cell hc0 entry.digitSet
            (digitSet_get entry) stack (Pos.neighbors entry.cell)
            (fun c hc => (neighbors_iff _ _).mp hc)
          refine Res.Post.bind (P := fun r => Later s r.1 ∧ Fresh r.1 ∧ (∀ t, Sat s t → StackSat (entry :: stack) t →
            Sat r.1 t ∧ StackSat r.2 t) ∧ size r.1 < size s ∧ size r.1 + r.2.length ≤ size s + stack.length)
            (Res.Post.mono hstep ?_ ?_) ?_
          · rintro ⟨s2, st2⟩ ⟨b1, b2, b3, b4, b5, b6, b7⟩
            simp only at b1 b2 b3 b4 b5 b6 b7 ⊢
            have hle : size s2 ≤ size s1 := size_le b4
            refine ⟨⟨b1, ?_, by omega, by rw [b3, l1]⟩, ?_, ?_, by omega, by omega⟩
            · rw [b2]; exact hext
            · intro c c' d hne hs hd
              rw [b2] at hd
              rw [g1, get_set_fin] at hd
              by_cases ec : entry.cell = c
              · rw [if_pos ec] at hd
                have := Digit.get_inj hd
                subst this
                subst ec
                exact b5 c' ((neighbors_iff _ _).mpr ⟨Ne.symm hne, hs⟩)
              · rw [if_neg ec] at hd
                have := hfr c c' d hne hs hd
                by_contra hcon
                rw [Bool.not_eq_false] at hcon
                have h3 := b4 _ _ hcon
                rw [p1, get_set_fin] at h3
                by_cases ec' : entry.cell = c'
                · rw [if_pos ec', bit_none] at h3; cases h3
                · rw [if_neg ec'] at h3
                  rw [this] at h3; cases h3
            · intro t ht hst
              exact b6 t (insertEntry_sat g1 p1 ht (hst entry (by simp))) (fun e he => hst e (by simp [he]))
          · intro h t ht hst
            exact h t (insertEntry_sat g1 p1 ht (hst entry (by simp)))
          · rintro ⟨s2, st2⟩ ⟨b1, b2, b3, b4, b5⟩
            simp only at b1 b2 b3 b4 b5 ⊢
            by_cases hlen : st2.length > 4
            · rw [if_pos hlen]
              exact ⟨⟨b1, b2, b3, fun _ _ => b4⟩, Or.inr b4⟩
            · rw [if_neg hlen]
              refine Res.Post.mono (ih s2 st2 b1.inv b2 (by omega)) ?_ ?_
              · rintro ⟨s3, st3⟩ ⟨⟨a1, a2, a3, a4⟩, a5⟩
                have := a1.size
                refine ⟨⟨b1.trans a1, a2, fun t ht hst => ?_, fun _ _ => ?_⟩, Or.inr ?_⟩
                · obtain ⟨x, y⟩ := b3 t ht hst
                  exact a3 t x y
                · show size s3 < size s
                  simp only at this; omega
                · show size s3 < size s
                  simp only at this; omega
              · intro h t ht hst
                obtain ⟨x, y⟩ := b3 t ht hst
                exact h t x y

/-- The entries a batch insertion makes are those of the stack. -/
def FromStack (s s' : Gen) (entries : List Candidate) : Prop :=
  ∀ c : Fin 81, s'.grid[c] = s.grid[c] ∨ ∃ e ∈ entries, e.cell = c ∧ s'.grid[c] = e.digit.get

theorem batchInsert_spec (s : Gen) (hi : Inv s) (entries : List Candidate) :
    Res.Post (s.batchInsert entries)
      (fun s' => Later s s' ∧ (∀ t, Sat s t → StackSat entries t → Sat s' t) ∧
        (∀ e ∈ entries, s'.grid[e.cell] ≠ 0) ∧ FromStack s s' entries ∧
        (∀ e ∈ entries, s.grid[e.cell] = 0 → size s' < size s))
      (∀ t, Sat s t → ¬ StackSat entries t) := by
  unfold Gen.batchInsert
  refine Res.Post.mono (Res.Post.foldlM (E := ∀ t, Sat s t → ¬ StackSat entries t)
    (fun rest (s' : Gen) => (∀ e ∈ rest, e ∈ entries) ∧ Later s s' ∧
        (∀ t, Sat s t → StackSat entries t → Sat s' t) ∧
        (∀ e ∈ entries, e ∉ rest → s'.grid[e.cell] ≠ 0) ∧ FromStack s s' entries ∧
        (s'.grid = s.grid ∨ size s' < size s)) entries s ?_ ?_) ?_ ?_
  · exact ⟨fun _ h => h, Later.refl hi, fun _ h _ => h, fun _ h h' => absurd h h', fun _ => Or.inl rfl, Or.inl rfl⟩
  · rintro e rest s1 ⟨h1, h2, h3, h4, h5, h6⟩
    have hrest : ∀ e' ∈ rest, e' ∈ entries := fun e' h => h1 e' (by simp [h])
    by_cases he : isEmpty s1.poss[e.cell] = true
    · rw [if_pos he]
      refine ⟨hrest, h2, h3, ?_, h5, h6⟩
      intro x hx hxr
      by_cases ex : x = e
      · subst ex; exact (isEmpty_poss h2.inv _).mp he
      · exact h4 x hx (by simp only [List.mem_cons, not_or]; exact ⟨ex, hxr⟩)
    · rw [if_neg he]
      have hopen : s1.grid[e.cell] = 0 := by
        by_contra hne
        exact he ((isEmpty_poss h2.inv _).mpr hne)
      have hov : ∀ h : Fin 27, overlaps s1.house[h] e.digitSet = true ↔ s1.house[h].getLsbD e.digit.val = true := by
        intro h
        rw [overlaps_iff]
        constructor
        · rintro ⟨i, a, b⟩
          rw [digitSet_get] at b
          rw [← b]; exact a
        · intro a
          exact ⟨_, a, (digitSet_get _ _).mpr rfl⟩
      split
      · rename_i hc
        have : ∃ h, InHouse h e.cell ∧ s1.house[h].getLsbD e.digit.val = true := by
          rw [Bool.or_eq_true, Bool.or_eq_true, hov, hov, hov] at hc
          rcases hc with (h | h) | h
          · exact ⟨_, Or.inl rfl, h⟩
          · exact ⟨_, Or.inr (Or.inl rfl), h⟩
          · exact ⟨_, Or.inr (Or.inr rfl), h⟩
        obtain ⟨h, hin, hb⟩ := this
        obtain ⟨c', hc', hg'⟩ := (h2.inv.house h e.digit).mp hb
        intro t ht hst
        have ht1 := h3 t ht hst
        have b1 := hst e (h1 e (by simp))
        have b2 := (ht1.2 c').1 (by rw [hg']; exact Digit.get_ne_zero _)
        rw [hg'] at b2
        have hne : e.cell ≠ c' := by
          intro ee
          have : s1.grid[e.cell] = s1.grid[c'] := congrArg (fun x : Fin 81 => s1.grid[x]) ee
          rw [← this, hopen] at hg'
          exact Digit.get_ne_zero _ hg'.symm
        exact ht.1.2 e.cell c' hne (sameHouse_of_inHouse h _ _ hin hc') (by rw [b1, b2])
      · rename_i hc
        rw [Bool.or_eq_true, Bool.or_eq_true, hov, hov, hov] at hc
        obtain ⟨s2, e2, i2, g2, p2, l2⟩ := insertEntry_spec h2.inv hopen (by
          intro c' hne hs hg'
          obtain ⟨h, a1, a2⟩ := inHouse_of_sameHouse hs
          have hb := (h2.inv.house h e.digit).mpr ⟨c', a2, hg'⟩
          apply hc
          rcases a1 with rfl | rfl | rfl
          · exact Or.inl (Or.inl hb)
          · exact Or.inl (Or.inr hb)
          · exact Or.inr hb)
        rw [e2]
        have hsz := insertEntry_size h2.inv p2 hopen
        have := h2.size
        have hext := insertEntry_extends g2 hopen
        refine ⟨hrest, h2.trans ⟨i2, hext, by omega, l2⟩, ?_, ?_, ?_, Or.inr (by omega)⟩
        · intro t ht hst
          exact insertEntry_sat g2 p2 (h3 t ht hst) (hst e (h1 e (by simp)))
        · intro x hx hxr
          rw [g2, get_set_fin]
          split
          · exact Digit.get_ne_zero _
          · rename_i hne
            refine h4 x hx ?_
            simp only [List.mem_cons, not_or]
            exact ⟨fun ee => hne (by rw [ee]), hxr⟩
        · intro c
          rw [g2, get_set_fin]
          by_cases ec : e.cell = c
          · rw [if_pos ec]
            exact Or.inr ⟨e, h1 e (by simp), ec, rfl⟩
          · rw [if_neg ec]
            exact h5 c
  · rintro s' ⟨_, h2, h3, h4, h5, h6⟩
    refine ⟨h2, h3, fun e he => h4 e he (by simp), h5, fun e he h0 => ?_⟩
    rcases h6 with h6 | h6
    · have := h4 e he (by simp)
      rw [h6] at this
      exact absurd h0 this
    · exact h6
  · exact id

/-- The digits entered in the houses of an empty cell. -/
theorem housesMask_get {s : Gen} (hi : Inv s) (c : Fin 81) (h0 : s.grid[c] = 0) (d : Digit) :
    (s.housesMask c).getLsbD d.val = true ↔ ∃ c' : Fin 81, c ≠ c' ∧ SameHouse c c' ∧ s.grid[c'] = d.get := by
  unfold Gen.housesMask
  rw [bit_union, bit_union, Bool.or_eq_true, Bool.or_eq_true, hi.house, hi.house, hi.house]
  have hne : ∀ c', s.grid[c'] = d.get → c ≠ c' := by
    rintro c' h rfl
    rw [h0] at h
    exact Digit.get_ne_zero _ h.symm
  constructor
  · rintro ((⟨c', h1, h2⟩ | ⟨c', h1, h2⟩) | ⟨c', h1, h2⟩)
    · exact ⟨c', hne _ h2, sameHouse_of_inHouse _ _ _ (Or.inl rfl) h1, h2⟩
    · exact ⟨c', hne _ h2, sameHouse_of_inHouse _ _ _ (Or.inr (Or.inl rfl)) h1, h2⟩
    · exact ⟨c', hne _ h2, sameHouse_of_inHouse _ _ _ (Or.inr (Or.inr rfl)) h1, h2⟩
  · rintro ⟨c', _, hs, h2⟩
    obtain ⟨h, a1, a2⟩ := inHouse_of_sameHouse hs
    rcases a1 with rfl | rfl | rfl
    · exact Or.inl (Or.inl ⟨c', a2, h2⟩)
    · exact Or.inl (Or.inr ⟨c', a2, h2⟩)
    · exact Or.inr ⟨c', a2, h2⟩

theorem refresh_spec (s : Gen) (hi : Inv s) :
    Res.Post (s.refresh (List.finRange 81) [])
      (fun r => Later s r.1 ∧ r.1.grid = s.grid ∧ Fresh r.1 ∧ (∀ t, Sat s t → Sat r.1 t ∧ StackSat r.2 t) ∧
        AllOpen r.1 r.2)
      (∀ t, ¬ Sat s t) := by
  unfold Gen.refresh
  refine Res.Post.mono (Res.Post.foldlM (E := ∀ t, ¬ Sat s t)
    (fun rest (r : Gen × List Candidate) => Later s r.1 ∧ r.1.grid = s.grid ∧ r.1.house = s.house ∧
        (∀ (x : Fin 81), x ∉ rest → r.1.grid[x] = 0 → ∀ d : Digit, (s.housesMask x).getLsbD d.val = true →
          r.1.poss[x].getLsbD d.val = false) ∧
        (∀ t, Sat s t → Sat r.1 t ∧ StackSat r.2 t) ∧ AllOpen r.1 r.2) (List.finRange 81) (s, []) ?_ ?_) ?_ ?_
  · refine ⟨Later.refl hi, rfl, rfl, fun x hx => absurd (List.mem_finRange x) hx, fun t h => ⟨h, ?_⟩, ?_⟩
    · intro e he; cases he
    · intro e he; cases he
  · rintro c rest ⟨s1, st1⟩ ⟨h1, h2, h3, h4, h5, h6⟩
    simp only at h1 h2 h3 h4 h5 h6 ⊢
    by_cases he : isEmpty s1.poss[c] = true
    · rw [if_pos he]
      refine ⟨h1, h2, h3, ?_, h5, h6⟩
      intro x hx h0 d hd
      by_cases ex : x = c
      · subst ex
        exact absurd h0 ((isEmpty_poss h1.inv _).mp he)
      · exact h4 x (by simp only [List.mem_cons, not_or]; exact ⟨ex, hx⟩) h0 d hd
    · rw [if_neg he]
      have hopen : s1.grid[c] = 0 := by
        by_contra hne
        exact he ((isEmpty_poss h1.inv _).mpr hne)
      have hmask : s1.housesMask c = s.housesMask c := by unfold Gen.housesMask; rw [h3]
      have hopen' : s.grid[c] = 0 := by rw [← h2]; exact hopen
      have hnot : ∀ t, Sat s t → ∀ d : Digit, t[c] = d.get → (s1.housesMask c).getLsbD d.val = false := by
        intro t ht d hd
        by_contra hcon
        rw [Bool.not_eq_false, hmask, housesMask_get hi c hopen'] at hcon
        obtain ⟨c', hne, hs, hg⟩ := hcon
        have := (ht.2 c').1 (by rw [hg]; exact Digit.get_ne_zero _)
        rw [hg] at this
        exact ht.1.2 c c' hne hs (by rw [hd, this])
      refine Res.Post.mono (remove_spec h1.inv hopen _ st1) ?_ ?_
      · rintro ⟨s2, st2⟩ ⟨e1, e2, e3⟩
        simp only at e1 e2 e3 ⊢
        subst e1
        have hsub := withPoss_sub s1 c (s1.housesMask c)
        refine ⟨h1.trans ⟨e2, Extends.refl' _, size_le hsub, rfl⟩, h2, h3, ?_, ?_, ?_⟩
        · intro x hx h0 d hd
          by_cases ex : x = c
          · subst ex
            rw [withPoss_get, if_pos rfl, bit_without, hmask, hd]
            simp
          · rw [withPoss_get, if_neg (Ne.symm ex)]
            exact h4 x (by simp only [List.mem_cons, not_or]; exact ⟨ex, hx⟩) h0 d hd
        · intro t ht
          have a3 := withPoss_sat (h5 t ht).1 (hnot t ht)
          refine ⟨a3, ?_⟩
          rcases e3 with rfl | ⟨d', rfl, hd'⟩
          · exact (h5 t ht).2
          · intro y hy
            rcases List.mem_cons.mp hy with rfl | hy
            · obtain ⟨e, b1, b2⟩ := (a3.2 c).2 hopen
              rw [withPoss_get, if_pos rfl] at b2
              have : e = d' := Fin.ext ((hd' _).mp b2)
              subst this
              exact b1
            · exact (h5 t ht).2 y hy
        · rcases e3 with rfl | ⟨d', rfl, hd'⟩
          · exact h6
          · intro y hy
            rcases List.mem_cons.mp hy with rfl | hy
            · exact hopen
            · exact h6 y hy
      · intro hz t ht
        obtain ⟨e, b1, b2⟩ := ((h5 t ht).1.2 c).2 hopen
        have b3 := hnot t ht e b1
        have : (without s1.poss[c] (s1.housesMask c)).getLsbD e.val = true := by rw [bit_without, b2, b3]; rfl
        rw [hz] at this
        simp at this
  · rintro ⟨s1, st1⟩ ⟨h1, h2, h3, h4, h5, h6⟩
    simp only at h1 h2 h3 h4 h5 h6 ⊢
    refine ⟨h1, h2, ?_, h5, h6⟩
    intro c c' d hne hs hd
    by_cases h0 : s1.grid[c'] = 0
    · refine h4 c' (by simp) h0 d ?_
      rw [housesMask_get hi c' (by rw [← h2]; exact h0)]
      exact ⟨c, Ne.symm hne, SameHouse.symm' hs, by rw [← h2]; exact hd⟩
    · rw [h1.inv.empty c' h0]; simp
  · exact id

theorem batch_spec (s : Gen) (hi : Inv s) (stack : List Candidate) :
    Res.Post (s.batch stack)
      (fun r => Inserted s stack r ∧ AllOpen r.1 r.2 ∧ (∀ e ∈ stack, r.1.grid[e.cell] ≠ 0) ∧ FromStack s r.1 stack)
      (∀ t, Sat s t → ¬ StackSat stack t) := by
  unfold Gen.batch
  have hrev : ∀ t, StackSat stack t → StackSat stack.reverse t := fun t h e he => h e (List.mem_reverse.mp he)
  refine Res.Post.bind (P := fun s' => Later s s' ∧ (∀ t, Sat s t → StackSat stack t → Sat s' t) ∧
        (∀ e ∈ stack, s'.grid[e.cell] ≠ 0) ∧ FromStack s s' stack ∧
        (∀ e ∈ stack, s.grid[e.cell] = 0 → size s' < size s)) (Res.Post.mono (batchInsert_spec s hi stack.reverse) ?_ ?_) ?_
  · rintro s' ⟨h1, h2, h3, h4, h5⟩
    refine ⟨h1, fun t ht hst => h2 t ht (hrev t hst), fun e he => h3 e (List.mem_reverse.mpr he), ?_,
      fun e he => h5 e (List.mem_reverse.mpr he)⟩
    intro c
    rcases h4 c with h | ⟨e, he, h⟩
    · exact Or.inl h
    · exact Or.inr ⟨e, List.mem_reverse.mp he, h⟩
  · intro h t ht hst
    exact h t ht (hrev t hst)
  · rintro s1 ⟨h1, h2, h3, h4, h5⟩
    refine Res.Post.mono (refresh_spec s1 h1.inv) ?_ ?_
    · rintro ⟨s2, st2⟩ ⟨a1, a2, a3, a4, a5⟩
      simp only at a1 a2 a3 a4 a5 ⊢
      have := a1.size
      refine ⟨⟨h1.trans a1, a3, fun t ht hst => a4 t (h2 t ht hst), fun hne hao => ?_⟩, a5, ?_, ?_⟩
      · obtain ⟨e, he⟩ := List.exists_mem_of_ne_nil _ hne
        have := h5 e he (hao e he)
        show size s2 < size s
        omega
      · rw [a2]; exact h3
      · intro c
        show s2.grid[c] = _ ∨ ∃ e ∈ stack, e.cell = c ∧ s2.grid[c] = _
        rw [a2]; exact h4 c
    · intro h t ht hst
      exact h t (h2 t ht hst)

instance (s : Gen) (stack : List Candidate) : Decidable (AllOpen s stack) := by unfold AllOpen; infer_instance

/-- `insert_entries`. -/
theorem insertEntries_spec (fuel0 : Nat) : ∀ (fuel : Nat) (s : Gen) (stack : List Candidate), Inv s → Fresh s →
    size s + 4 < fuel0 → 2 * size s + (if AllOpen s stack then 0 else 1) < fuel →
    Res.Post (Gen.insertEntries fuel0 fuel s stack)
      (fun s' => Inserted s stack (s', []) ∧
        (4 < stack.length → (∀ e ∈ stack, s'.grid[e.cell] ≠ 0) ∧
          ∀ c : Fin 81, s.grid[c] = 0 → (∃ e ∈ stack, e.cell = c) → ∃ e ∈ stack, e.cell = c ∧ s'.grid[c] = e.digit.get))
      (∀ t, Sat s t → ¬ StackSat stack t) := by
  intro fuel
  induction fuel with
  | zero => intro s stack _ _ _ h; omega
  | succ fuel ih =>
    intro s stack hi hfr hf0 hfuel
    unfold Gen.insertEntries
    by_cases hlen : stack.length = 0
    · rw [if_pos hlen]
      have := List.length_eq_zero_iff.mp hlen
      subst this
      exact ⟨⟨Later.refl hi, hfr, fun t h h' => ⟨h, h'⟩, fun h => absurd rfl h⟩, fun h => absurd h (by simp)⟩
    · rw [if_neg hlen]
      have hne : stack ≠ [] := fun h => hlen (by rw [h]; rfl)
      by_cases h4 : stack.length ≤ 4
      · rw [if_pos h4]
        refine Res.Post.bind (insertSingly_spec fuel0 s stack hi hfr (by omega)) ?_
        rintro ⟨s1, st1⟩ ⟨⟨a1, a2, a3, a4⟩, a5⟩
        simp only at a1 a2 a3 a4 a5 ⊢
        have hle := a1.size
        have hfuel' : 2 * size s1 + (if AllOpen s1 st1 then 0 else 1) < fuel := by
          rcases a5 with rfl | a5
          · rw [if_pos (by intro e he; cases he)]
            by_cases hao : AllOpen s stack
            · have := a4 hne hao
              rw [if_pos hao] at hfuel
              omega
            · rw [if_neg hao] at hfuel
              omega
          · split <;> omega
        refine Res.Post.mono (ih s1 st1 a1.inv a2 (by omega) hfuel') ?_ ?_
        · rintro s2 ⟨⟨b1, b2, b3, b4⟩, _⟩
          simp only at b1 b2 b3 b4
          have hle2 := b1.size
          refine ⟨⟨a1.trans b1, b2, fun t ht hst => ?_, fun h1 h2 => ?_⟩, fun h => absurd h (by omega)⟩
          · obtain ⟨x, y⟩ := a3 t ht hst
            exact b3 t x y
          · have := a4 h1 h2
            show size s2 < size s
            omega
        · intro h t ht hst
          obtain ⟨x, y⟩ := a3 t ht hst
          exact h t x y
      · rw [if_neg h4]
        refine Res.Post.bind (batch_spec s hi stack) ?_
        rintro ⟨s1, st1⟩ ⟨⟨a1, a2, a3, a4⟩, a5, a6, a7⟩
        simp only at a1 a2 a3 a4 a5 a6 a7 ⊢
        have hle := a1.size
        have hfuel' : 2 * size s1 + (if AllOpen s1 st1 then 0 else 1) < fuel := by
          rw [if_pos a5]
          by_cases hao : AllOpen s stack
          · have := a4 hne hao
            rw [if_pos hao] at hfuel
            omega
          · rw [if_neg hao] at hfuel
            omega
        refine Res.Post.mono (ih s1 st1 a1.inv a2 (by omega) hfuel') ?_ ?_
        · rintro s2 ⟨⟨b1, b2, b3, b4⟩, _⟩
          simp only at b1 b2 b3 b4
          have hle2 := b1.size
          refine ⟨⟨a1.trans b1, b2, fun t ht hst => ?_, fun h1 h2 => ?_⟩, fun _ => ⟨?_, ?_⟩⟩
          · obtain ⟨x, y⟩ := a3 t ht hst
            exact b3 t x y
          · have := a4 h1 h2
            show size s2 < size s
            omega
          · intro e he
            rw [b1.ext _ (a6 e he)]
            exact a6 e he
          · rintro c h0 ⟨e, he, rfl⟩
            have hne' := a6 e he
            rcases a7 e.cell with h | ⟨e', he', h1, h2⟩
            · rw [h] at hne'; exact absurd h0 hne'
            · refine ⟨e', he', h1, ?_⟩
              rw [b1.ext _ hne', h2]
        · intro h t ht hst
          obtain ⟨x, y⟩ := a3 t ht hst
          exact h t x y

end Verif.Generator
