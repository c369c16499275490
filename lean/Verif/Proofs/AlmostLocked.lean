import Verif.Model.AlmostLocked
import Verif.Spec.AlmostLocked
import Verif.Proofs.GenSolve
import Verif.Proofs.PatternSound
import Mathlib.Tactic.Tauto

/-! Lemmas about almost locked sets. -/
namespace Verif.AlmostLocked

open Verif Strat Bitset Pattern

variable {cp : Vector DigitSet 81}

/-- The combinations that the search looks at. -/
def visits (cp : Vector DigitSet 81) : List (Fin 81) → Pos.Cells → DigitSet → List (Pos.Cells × DigitSet)
  | [], _, _ => []
  | cell :: cells, cs, ds =>
    if len cp[cell] ≤ 1 then visits cp cells cs ds
    else (union cs (asSet 128 cell.val), union ds cp[cell]) ::
      (visits cp cells (union cs (asSet 128 cell.val)) (union ds cp[cell]) ++ visits cp cells cs ds)

def ofSize (i : Fin 8) (x : Pos.Cells × DigitSet) : Bool :=
  decide ((elems x.1).card = i.val + 1 ∧ (elems x.2).card = i.val + 2)

theorem elems_new (cs : Pos.Cells) (cell : Fin 81) : elems (union cs (asSet 128 cell.val)) = insert cell.val (elems cs) := by
  ext i
  rw [mem_elems, bit_union, Bool.or_eq_true, bit_asSet (by omega), Finset.mem_insert, mem_elems]
  tauto

theorem len_le_one {a : DigitSet} : len a ≤ 1 ↔ (elems a).card ≤ 1 := by
  rw [UInt8.le_iff_toNat_le, len_toNat (by decide)]
  rfl

theorem card_le_nine {a : DigitSet} (h : Fits 9 a) : (elems a).card ≤ 9 := by
  have := Finset.card_le_card (fits_iff.mp h)
  rwa [Finset.card_range] at this

theorem fits_union {a b : DigitSet} (ha : Fits 9 a) (hb : Fits 9 b) : Fits 9 (union a b) := by
  intro i hi
  rw [bit_union, Bool.or_eq_true] at hi
  exact hi.elim (ha i) (hb i)

theorem pushAls_spec (t : AlsTable) (index : Nat) (hi : index < 8) (house : Fin 27) (x : Pos.Cells × DigitSet) :
    ∃ t', pushAls t index house x = .ok t' ∧ ∀ (i : Fin 8) (h : Fin 27),
      t'[i][h] = t[i][h] ++ if i.val = index ∧ h = house then [x] else [] := by
  refine ⟨_, dif_pos hi, fun i h => ?_⟩
  by_cases e1 : i.val = index
  · subst e1
    by_cases e2 : h = house
    · subst e2; simp
    · have : house.val ≠ h.val := fun e => e2 (Fin.ext e.symm)
      simp [e2, this]
  · have : index ≠ i.val := fun e => e1 e.symm
    simp [e1, this]

theorem walkAls_spec (hf : ∀ c : Fin 81, Fits 9 cp[c]) (house : Fin 27) :
    ∀ (cells : List (Fin 81)) (cs : Pos.Cells) (ds : DigitSet) (depth : UInt8) (t : AlsTable),
    cells.Nodup → (∀ c ∈ cells, c.val ∉ elems cs) → (elems cs).card = depth.toNat → depth.toNat + cells.length ≤ 9 → Fits 9 ds →
    ∃ t', walkAls cp house cells cs ds depth t = .ok t' ∧ ∀ (i : Fin 8) (h : Fin 27),
      t'[i][h] = t[i][h] ++ if h = house then (visits cp cells cs ds).filter (ofSize i) else [] := by
  intro cells
  induction cells with
  | nil => intro cs ds depth t _ _ _ _ _; exact ⟨t, rfl, fun i h => by simp [visits]⟩
  | cons cell cells ih =>
    intro cs ds depth t hnd hcs hcard hlen hds
    rw [List.nodup_cons] at hnd
    rw [List.length_cons] at hlen
    have hcs' : ∀ c ∈ cells, c.val ∉ elems cs := fun c hc => hcs c (List.mem_cons_of_mem _ hc)
    unfold walkAls visits
    by_cases h1 : len cp[cell] ≤ 1
    · simp only [h1, if_true]
      exact ih cs ds depth t hnd.2 hcs' hcard (by omega) hds
    · simp only [h1, if_false]
      have hnew : (elems (union cs (asSet 128 cell.val))).card = depth.toNat + 1 := by
        rw [elems_new, Finset.card_insert_of_notMem (hcs cell (List.mem_cons_self ..)), hcard]
      have hd1 : (depth + 1).toNat = depth.toNat + 1 := by
        rw [UInt8.toNat_add]
        show (depth.toNat + 1) % 256 = _
        omega
      have hlenc : (len (union cs (asSet 128 cell.val))).toNat = depth.toNat + 1 := by rw [len_toNat (by decide), hnew]
      have hlc : len (union cs (asSet 128 cell.val)) = depth + 1 := UInt8.toNat_inj.mp (hlenc.trans hd1.symm)
      have hfd := fits_union hds (hf cell)
      have hcond : len (union ds cp[cell]) = len (union cs (asSet 128 cell.val)) + 1 ↔
          (elems (union ds cp[cell])).card = depth.toNat + 2 := by
        rw [← UInt8.toNat_inj, len_toNat (by decide), UInt8.toNat_add, hlenc]
        show _ = (depth.toNat + 1 + 1) % 256 ↔ _
        rw [Nat.mod_eq_of_lt (by omega)]
      rw [if_neg (by rw [not_not]; exact hlc)]
      obtain ⟨t1, e1, ht1⟩ : ∃ t1, (if len (union ds cp[cell]) = len (union cs (asSet 128 cell.val)) + 1 then
          pushAls t ((len (union cs (asSet 128 cell.val))).toNat - 1) house (union cs (asSet 128 cell.val), union ds cp[cell])
          else .ok t) = .ok t1 ∧ ∀ (i : Fin 8) (h : Fin 27), t1[i][h] = t[i][h] ++ if h = house then
            [(union cs (asSet 128 cell.val), union ds cp[cell])].filter (ofSize i) else [] := by
        by_cases hc : len (union ds cp[cell]) = len (union cs (asSet 128 cell.val)) + 1
        · rw [if_pos hc]
          have h9 := card_le_nine hfd
          have h2 := hcond.mp hc
          obtain ⟨t1, e1, ht1⟩ := pushAls_spec t ((len (union cs (asSet 128 cell.val))).toNat - 1) (by omega) house
            (union cs (asSet 128 cell.val), union ds cp[cell])
          refine ⟨t1, e1, fun i h => ?_⟩
          rw [ht1, hlenc]
          congr 1
          by_cases hh : h = house
          · simp only [hh, and_true, if_true, List.filter_cons, ofSize, hnew, h2]
            by_cases hi : i.val = depth.toNat
            · simp [hi]
            · have : depth.toNat ≠ i.val := fun e => hi e.symm
              simp [hi, this]
          · simp [hh]
        · rw [if_neg hc]
          refine ⟨t, rfl, fun i h => ?_⟩
          have h2 : ¬ (elems (union ds cp[cell])).card = depth.toNat + 2 := fun e => hc (hcond.mpr e)
          have : ofSize i (union cs (asSet 128 cell.val), union ds cp[cell]) = false := by
            unfold ofSize
            rw [decide_eq_false_iff_not]
            rintro ⟨h1, h3⟩
            have h1 : (elems (union cs (asSet 128 cell.val))).card = i.val + 1 := h1
            have h3 : (elems (union ds cp[cell])).card = i.val + 2 := h3
            rw [hnew] at h1
            omega
          rw [List.filter_cons, this]
          simp
      rw [e1, Res.ok_bind]
      obtain ⟨t2, e2, ht2⟩ := ih (union cs (asSet 128 cell.val)) (union ds cp[cell]) (depth + 1) t1 hnd.2 (by
        intro c hc
        rw [elems_new, Finset.mem_insert, not_or]
        exact ⟨fun e => hnd.1 (Fin.ext e ▸ hc), hcs' c hc⟩) (by rw [hnew, hd1]) (by omega) hfd
      rw [e2, Res.ok_bind]
      obtain ⟨t3, e3, ht3⟩ := ih cs ds depth t2 hnd.2 hcs' hcard (by omega) hds
      refine ⟨t3, e3, fun i h => ?_⟩
      rw [ht3, ht2, ht1]
      by_cases hh : h = house
      · simp only [hh, if_true, List.append_assoc, ← List.filter_append, List.cons_append,
          List.nil_append]
      · simp [hh]

theorem findAls_spec (hf : ∀ c : Fin 81, Fits 9 cp[c]) : ∃ t, findAls cp = .ok t ∧ ∀ (i : Fin 8) (h : Fin 27),
    t[i][h] = (visits cp (mems 81 (Pos.houseCells h)) (NONE 128) (NONE 16)).filter (ofSize i) := by
  have hlen : ∀ h : Fin 27, (mems 81 (Pos.houseCells h)).length = 9 := by decide +kernel
  have key : ∀ (l : List (Fin 27)) (t : AlsTable), l.Nodup → ∃ t', l.foldlM (fun t house => do
      let cells ← items 81 (Pos.houseCells house)
      walkAls cp house cells (NONE 128) (NONE 16) 0 t) t = .ok t' ∧ ∀ (i : Fin 8) (h : Fin 27),
      t'[i][h] = t[i][h] ++ if h ∈ l then (visits cp (mems 81 (Pos.houseCells h)) (NONE 128) (NONE 16)).filter (ofSize i) else [] := by
    intro l
    induction l with
    | nil => intro t _; exact ⟨t, rfl, fun i h => by simp⟩
    | cons house l ih =>
      intro t hnd
      rw [List.nodup_cons] at hnd
      rw [List.foldlM_cons, items_eq (by decide) (by decide) (Generator.houseCells_fits house), Res.ok_bind]
      obtain ⟨t1, e1, ht1⟩ := walkAls_spec hf house (mems 81 (Pos.houseCells house)) (NONE 128) (NONE 16) 0 t (nodup_mems _)
        (fun c _ => by rw [elems_NONE]; simp) (by rw [elems_NONE]; rfl) (by rw [hlen]; decide)
        (fun i hi => by rw [bit_none] at hi; cases hi)
      rw [e1, Res.ok_bind]
      obtain ⟨t2, e2, ht2⟩ := ih t1 hnd.2
      refine ⟨t2, e2, fun i h => ?_⟩
      rw [ht2, ht1]
      by_cases hh : h = house
      · subst hh; simp [hnd.1]
      · simp [hh]
  obtain ⟨t, e, ht⟩ := key (List.finRange 27) (Vector.replicate 8 (Vector.replicate 27 [])) (List.nodup_finRange _)
  refine ⟨t, e, fun i h => ?_⟩
  rw [ht]
  simp

/-! ## The combinations -/

/-- The candidates of the cells of a list. -/
def candsOf (cp : Vector DigitSet 81) (l : List (Fin 81)) (i : Nat) : Prop := ∃ c ∈ l, i ∈ elems cp[c]

theorem mem_visits : ∀ (cells : List (Fin 81)) (cs : Pos.Cells) (ds : DigitSet) (x : Pos.Cells × DigitSet),
    x ∈ visits cp cells cs ds ↔ ∃ l, List.Sublist l cells ∧ l ≠ [] ∧ (∀ c ∈ l, 2 ≤ (elems cp[c]).card) ∧
      (∀ i, i ∈ elems x.1 ↔ i ∈ elems cs ∨ ∃ c ∈ l, c.val = i) ∧ (∀ i, i ∈ elems x.2 ↔ i ∈ elems ds ∨ candsOf cp l i) := by
  intro cells
  induction cells with
  | nil =>
    intro cs ds x
    constructor
    · intro h; cases h
    · rintro ⟨l, hl, hne, -⟩
      exact absurd (List.sublist_nil.mp hl) hne
  | cons cell cells ih =>
    intro cs ds x
    unfold visits
    by_cases h1 : len cp[cell] ≤ 1
    · rw [if_pos h1, ih]
      constructor
      · rintro ⟨l, hl, h⟩
        exact ⟨l, hl.cons _, h⟩
      · rintro ⟨l, hl, hne, h2, h⟩
        refine ⟨l, ?_, hne, h2, h⟩
        rcases List.sublist_cons_iff.mp hl with hl | ⟨l', rfl, -⟩
        · exact hl
        · have := h2 cell (List.mem_cons_self ..)
          have := len_le_one.mp h1
          omega
    · rw [if_neg h1, List.mem_cons, List.mem_append, ih, ih]
      have h2 : 2 ≤ (elems cp[cell]).card := by
        by_contra hlt
        exact h1 (len_le_one.mpr (by omega))
      have hnewd : ∀ i, i ∈ elems (union ds cp[cell]) ↔ i ∈ elems ds ∨ i ∈ elems cp[cell] := by
        intro i
        rw [mem_elems, bit_union, Bool.or_eq_true, ← mem_elems, ← mem_elems]
      constructor
      · rintro (rfl | ⟨l, hl, hne, h2', hc, hd⟩ | ⟨l, hl, h⟩)
        · refine ⟨[cell], List.Sublist.cons_cons _ (List.nil_sublist _), by simp, by simpa using h2, fun i => ?_, fun i => ?_⟩
          · simp only [elems_new, Finset.mem_insert, List.mem_singleton, exists_eq_left]
            tauto
          · simp only [hnewd, candsOf, List.mem_singleton, exists_eq_left]
        · refine ⟨cell :: l, hl.cons_cons _, by simp, ?_, fun i => ?_, fun i => ?_⟩
          · intro c hc
            rcases List.mem_cons.mp hc with rfl | hc
            · exact h2
            · exact h2' c hc
          · rw [hc, elems_new, Finset.mem_insert]
            simp only [List.mem_cons, exists_eq_or_imp]
            tauto
          · rw [hd, hnewd]
            simp only [candsOf, List.mem_cons, exists_eq_or_imp]
            tauto
        · exact ⟨l, hl.cons _, h⟩
      · rintro ⟨l, hl, hne, h2', hc, hd⟩
        rcases List.sublist_cons_iff.mp hl with hl | ⟨l', rfl, hl2⟩
        · exact Or.inr (Or.inr ⟨l, hl, hne, h2', hc, hd⟩)
        · by_cases hl' : l' = []
          · subst hl'
            left
            obtain ⟨x1, x2⟩ := x
            have e1 : x1 = union cs (asSet 128 cell.val) := by
              rw [← elems_inj]
              ext i
              rw [hc, elems_new, Finset.mem_insert]
              simp only [List.mem_singleton, exists_eq_left]
              tauto
            have e2 : x2 = union ds cp[cell] := by
              rw [← elems_inj]
              ext i
              rw [hd, hnewd]
              simp only [candsOf, List.mem_singleton, exists_eq_left]
            rw [e1, e2]
          · right; left
            refine ⟨l', hl2, hl', fun c hc => h2' c (List.mem_cons_of_mem _ hc), fun i => ?_, fun i => ?_⟩
            · rw [hc, elems_new, Finset.mem_insert]
              simp only [List.mem_cons, exists_eq_or_imp]
              tauto
            · rw [hd, hnewd]
              simp only [candsOf, List.mem_cons, exists_eq_or_imp]
              tauto

theorem visits_nodup : ∀ (cells : List (Fin 81)) (cs : Pos.Cells) (ds : DigitSet), cells.Nodup →
    (∀ c ∈ cells, c.val ∉ elems cs) → ((visits cp cells cs ds).map (·.1)).Nodup := by
  intro cells
  induction cells with
  | nil => intro _ _ _ _; exact List.nodup_nil
  | cons cell cells ih =>
    intro cs ds hnd hcs
    rw [List.nodup_cons] at hnd
    have hcs' : ∀ c ∈ cells, c.val ∉ elems cs := fun c hc => hcs c (List.mem_cons_of_mem _ hc)
    have hcell := hcs cell (List.mem_cons_self ..)
    unfold visits
    by_cases h1 : len cp[cell] ≤ 1
    · rw [if_pos h1]
      exact ih cs ds hnd.2 hcs'
    · rw [if_neg h1, List.map_cons, List.map_append, List.nodup_cons, List.mem_append, List.nodup_append]
      have hnew : ∀ c ∈ cells, c.val ∉ elems (union cs (asSet 128 cell.val)) := by
        intro c hc
        rw [elems_new, Finset.mem_insert, not_or]
        exact ⟨fun e => hnd.1 (Fin.ext e ▸ hc), hcs' c hc⟩
      have inl : ∀ s ∈ (visits cp cells (union cs (asSet 128 cell.val)) (union ds cp[cell])).map (·.1),
          cell.val ∈ elems s ∧ s ≠ union cs (asSet 128 cell.val) := by
        intro s hs
        obtain ⟨x, hx, rfl⟩ := List.mem_map.mp hs
        obtain ⟨l, hl, hne, -, hc, -⟩ := (mem_visits _ _ _ _).mp hx
        constructor
        · rw [hc, elems_new]
          exact Or.inl (Finset.mem_insert_self _ _)
        · intro e
          obtain ⟨c, l', rfl⟩ := List.exists_cons_of_ne_nil hne
          apply hnew c (hl.subset (List.mem_cons_self ..))
          rw [← e, hc]
          exact Or.inr ⟨c, List.mem_cons_self .., rfl⟩
      have inr : ∀ s ∈ (visits cp cells cs ds).map (·.1), cell.val ∉ elems s := by
        intro s hs h
        obtain ⟨x, hx, rfl⟩ := List.mem_map.mp hs
        obtain ⟨l, hl, -, -, hc, -⟩ := (mem_visits _ _ _ _).mp hx
        rcases (hc _).mp h with h | ⟨c, hcl, e⟩
        · exact hcell h
        · exact hnd.1 (Fin.ext e ▸ hl.subset hcl)
      refine ⟨?_, ih _ _ hnd.2 hnew, ih _ _ hnd.2 hcs', ?_⟩
      · rintro (h | h)
        · exact (inl _ h).2 rfl
        · apply inr _ h
          rw [elems_new]
          exact Finset.mem_insert_self _ _
      · intro a ha b hb e
        subst e
        exact inr _ hb (inl _ ha).1

/-! ## The lists -/

theorem mem_house (h : Fin 27) (c : Fin 81) : c ∈ mems 81 (Pos.houseCells h) ↔ InHouse h c := by
  rw [mem_mems]
  revert h c
  decide +kernel

theorem almostLocked_iff (hf : ∀ c : Fin 81, Fits 9 cp[c]) (i : Fin 8) (h : Fin 27) (x : Pos.Cells × DigitSet) :
    x ∈ (visits cp (mems 81 (Pos.houseCells h)) (NONE 128) (NONE 16)).filter (ofSize i) ↔
      AlmostLocked (fun c d => d.val ∈ elems cp[c]) (i.val + 1) h x.1 x.2 := by
  rw [List.mem_filter, mem_visits, ofSize, decide_eq_true_iff]
  simp only [elems_NONE, Finset.notMem_empty, false_or]
  constructor
  · rintro ⟨⟨l, hl, hne, h2, hc, hd⟩, hs1, hs2⟩
    have hmem : ∀ c : Fin 81, Has x.1 c.val ↔ c ∈ l := by
      intro c
      constructor
      · intro hh
        obtain ⟨c', hc', e⟩ := (hc _).mp hh
        exact Fin.ext e ▸ hc'
      · intro hh
        exact (hc _).mpr ⟨c, hh, rfl⟩
    refine ⟨fun j hj => ?_, hs1, fun c hcx => ?_, fun j => ?_, hs2⟩
    · obtain ⟨c, hcl, e⟩ := (hc j).mp hj
      exact ⟨c, e, (mem_house h c).mp (hl.subset hcl)⟩
    · obtain ⟨a, ha, b, hb, hab⟩ := Finset.one_lt_card.mp (h2 c ((hmem c).mp hcx))
      exact ⟨⟨a, hf c a (mem_elems.mp ha)⟩, ⟨b, hf c b (mem_elems.mp hb)⟩, fun e => hab (Fin.mk.inj e), ha, hb⟩
    · refine (hd j).trans ⟨?_, ?_⟩
      · rintro ⟨c, hcl, hj⟩
        exact ⟨⟨j, hf c j (mem_elems.mp hj)⟩, rfl, c, (hmem c).mpr hcl, hj⟩
      · rintro ⟨d, rfl, c, hcx, hj⟩
        exact ⟨c, (hmem c).mp hcx, hj⟩
  · intro hA
    have hmem : ∀ c : Fin 81, c ∈ (mems 81 (Pos.houseCells h)).filter (fun c => decide (c.val ∈ elems x.1)) ↔ Has x.1 c.val := by
      intro c
      rw [List.mem_filter, decide_eq_true_iff, mem_house]
      constructor
      · exact fun hh => hh.2
      · intro hh
        obtain ⟨c', e, hc'⟩ := hA.inHouse _ hh
        exact ⟨Fin.ext e ▸ hc', hh⟩
    refine ⟨⟨(mems 81 (Pos.houseCells h)).filter (fun c => decide (c.val ∈ elems x.1)), List.filter_sublist, ?_, ?_, ?_, ?_⟩,
      hA.size, hA.more⟩
    · intro e
      have : 0 < (elems x.1).card := by rw [hA.size]; omega
      obtain ⟨j, hj⟩ := Finset.card_pos.mp this
      obtain ⟨c, rfl, -⟩ := hA.inHouse j hj
      have := (hmem c).mpr hj
      rw [e] at this
      cases this
    · intro c hc
      obtain ⟨d, d', hne, h1, h2⟩ := hA.two c ((hmem c).mp hc)
      exact Finset.one_lt_card.mpr ⟨_, h1, _, h2, fun e => hne (Fin.ext e)⟩
    · intro j
      constructor
      · intro hj
        obtain ⟨c, rfl, -⟩ := hA.inHouse j hj
        exact ⟨c, (hmem c).mpr hj, rfl⟩
      · rintro ⟨c, hc, rfl⟩
        exact (hmem c).mp hc
    · intro j
      refine (hA.together j).trans ⟨?_, ?_⟩
      · rintro ⟨d, rfl, c, hcx, hj⟩
        exact ⟨c, (hmem c).mpr hcx, hj⟩
      · rintro ⟨c, hcl, hj⟩
        exact ⟨⟨j, hf c j (mem_elems.mp hj)⟩, rfl, c, (hmem c).mp hcl, hj⟩

theorem entries_nodup (i : Fin 8) (h : Fin 27) :
    (((visits cp (mems 81 (Pos.houseCells h)) (NONE 128) (NONE 16)).filter (ofSize i)).map (·.1)).Nodup :=
  List.Nodup.sublist (List.filter_sublist.map _)
    (visits_nodup _ _ _ (nodup_mems _) (fun c _ => by rw [elems_NONE]; simp))

/-! ## The comparison -/

theorem forM_ok {α : Type} {f : α → Res Unit} : ∀ l : List α, (∀ x ∈ l, f x = .ok ()) → l.forM f = .ok ()
  | [], _ => rfl
  | x :: l, h => by
    show (f x >>= fun _ => l.forM f) = _
    rw [h x (by simp), Res.ok_bind]
    exact forM_ok l (fun y hy => h y (by simp [hy]))

theorem forM_panic {α : Type} {f : α → Res Unit} {y : α} {l' : List α} (hy : f y = .panic) :
    ∀ l : List α, (∀ x ∈ l, f x = .ok ()) → (l ++ y :: l').forM f = .panic
  | [], _ => by
    show (f y >>= fun _ => l'.forM f) = _
    rw [hy]
    rfl
  | x :: l, h => by
    show (f x >>= fun _ => (l ++ y :: l').forM f) = _
    rw [h x (by simp), Res.ok_bind]
    exact forM_panic hy l (fun y hy => h y (by simp [hy]))

theorem cellsOfDigit_ok (cp : Vector DigitSet 81) (digit : Digit) {cells : Pos.Cells} (h : Fits 81 cells) :
    ∃ r, cellsOfDigit cp digit cells = .ok r := by
  unfold cellsOfDigit
  rw [items_eq (by decide) (by decide) h, Res.ok_bind]
  exact ⟨_, rfl⟩

theorem compareAls_ok (cp : Vector DigitSet 81) {sets1 sets2 : Vector (List (Pos.Cells × DigitSet)) 27}
    (h1 : ∀ h : Fin 27, ∀ x ∈ sets1[h], Fits 81 x.1 ∧ Fits 9 x.2) (h2 : ∀ h : Fin 27, ∀ x ∈ sets2[h], Fits 81 x.1 ∧ Fits 9 x.2) :
    compareAls cp sets1 sets2 = .ok () := by
  unfold compareAls
  refine forM_ok _ (fun house1 _ => forM_ok _ (fun x1 hx1 => forM_ok _ (fun house2 _ => forM_ok _ (fun x2 hx2 => ?_))))
  have g1 := h1 house1 x1 hx1
  have g2 := h2 house2 x2 hx2
  by_cases he : isEmpty (inter x1.2 x2.2) = true
  · simp [he]
  · simp only [he]
    have hfi : Fits 9 (inter x1.2 x2.2) := by
      intro i hi
      rw [bit_inter, Bool.and_eq_true] at hi
      exact g1.2 i hi.1
    rw [items_eq (by decide) (by decide) hfi]
    refine forM_ok _ (fun digit _ => ?_)
    obtain ⟨r1, e1⟩ := cellsOfDigit_ok cp digit g1.1
    obtain ⟨r2, e2⟩ := cellsOfDigit_ok cp digit g2.1
    rw [e1, Res.ok_bind, e2, Res.ok_bind]
    split <;> rfl

theorem als_fits {cand : Fin 81 → Digit → Prop} {n h : Nat} {cells : Pos.Cells} {digits : DigitSet}
    (hA : AlmostLocked cand n h cells digits) : Fits 81 cells ∧ Fits 9 digits := by
  constructor
  · intro i hi
    obtain ⟨c, rfl, -⟩ := hA.inHouse i (mem_elems.mpr hi)
    exact c.isLt
  · intro i hi
    obtain ⟨d, rfl, -⟩ := (hA.together i).mp (mem_elems.mpr hi)
    exact d.isLt

theorem als_sizes {cand : Fin 81 → Digit → Prop} {n h : Nat} {cells : Pos.Cells} {digits : DigitSet}
    (hA : AlmostLocked cand n h cells digits) : 1 ≤ n ∧ n ≤ 8 := by
  have h9 := card_le_nine (als_fits hA).2
  rw [hA.more] at h9
  refine ⟨?_, by omega⟩
  have hpos : 0 < (elems digits).card := by rw [hA.more]; omega
  obtain ⟨j, hj⟩ := Finset.card_pos.mp hpos
  obtain ⟨d, -, c, hc, -⟩ := (hA.together j).mp hj
  rw [← hA.size]
  exact Finset.card_pos.mpr ⟨_, hc⟩

theorem find_panics (hf : ∀ c : Fin 81, Fits 9 cp[c]) : findAlmostLockedSets cp = .panic := by
  obtain ⟨t, e, ht⟩ := findAls_spec hf
  have hfit : ∀ (i : Fin 8) (h : Fin 27), ∀ x ∈ t[i][h], Fits 81 x.1 ∧ Fits 9 x.2 := by
    intro i h x hx
    rw [ht] at hx
    exact als_fits ((almostLocked_iff hf i h x).mp hx)
  have hok : ∀ size1 : Nat, size1 < 8 → (List.range' 1 size1).forM (fun size2 =>
      if h1 : size1 < 8 then
        if h2 : size2 < 8 then compareAls cp t[size1] t[size2] else .panic
      else (.panic : Res Unit)) = .ok () := by
    intro size1 h1
    refine forM_ok _ (fun size2 h2 => ?_)
    have h2 : size2 < 8 := by
      rw [List.mem_range'_1] at h2
      omega
    rw [dif_pos h1, dif_pos h2]
    exact compareAls_ok cp (hfit ⟨size1, h1⟩) (hfit ⟨size2, h2⟩)
  unfold findAlmostLockedSets
  rw [e, Res.ok_bind]
  exact forM_panic (l' := []) rfl [2, 3, 4, 5, 6, 7] (fun x hx => hok x (by
    simp only [List.mem_cons, List.not_mem_nil, or_false] at hx
    omega))

/-! ## What they mean -/

theorem one_missing {t : Grid} (ht : Solved t) {cand : Fin 81 → Digit → Prop} {n h : Nat} {cells : Pos.Cells}
    {digits : DigitSet} (hA : AlmostLocked cand n h cells digits)
    (hc : ∀ (c : Fin 81) (d : Digit), Has cells c.val → t[c] = d.get → cand c d) :
    ∃! d : Digit, Has digits d.val ∧ ∀ c : Fin 81, Has cells c.val → t[c] ≠ d.get := by
  have hex : ∀ c : Fin 81, ∃ d : Digit, t[c] = d.get := by
    intro c
    obtain ⟨h1, h9⟩ := ht.1 c
    rw [UInt8.le_iff_toNat_le] at h1 h9
    have h1' : 1 ≤ t[c].toNat := h1
    have h9' : t[c].toNat ≤ 9 := h9
    refine ⟨⟨t[c].toNat - 1, by omega⟩, UInt8.toNat_inj.mp ?_⟩
    simp only [Digit.get]
    simp only [UInt8.toNat_ofNat']
    omega
  choose f hfd using hex
  have get_inj : ∀ a b : Digit, a.get = b.get → a = b := by decide +kernel
  let g : Nat → Nat := fun i => if h : i < 81 then (f ⟨i, h⟩).val else 0
  have hg : ∀ c : Fin 81, g c.val = (f c).val := fun c => dif_pos c.isLt
  have hinj : Set.InjOn g (elems cells : Set Nat) := by
    intro i hi j hj e
    obtain ⟨c, rfl, hci⟩ := hA.inHouse i hi
    obtain ⟨c', rfl, hcj⟩ := hA.inHouse j hj
    rw [hg, hg] at e
    by_contra hne
    apply ht.2 c c' (fun e => hne (congrArg Fin.val e)) (hci.same hcj)
    rw [hfd, hfd, Fin.ext e]
  have hsub : (elems cells).image g ⊆ elems digits := by
    intro j hj
    obtain ⟨i, hi, rfl⟩ := Finset.mem_image.mp hj
    obtain ⟨c, rfl, -⟩ := hA.inHouse i hi
    rw [hg]
    exact (hA.together _).mpr ⟨f c, rfl, c, hi, hc c (f c) hi (hfd c)⟩
  have hcard : (elems digits \ (elems cells).image g).card = 1 := by
    rw [Finset.card_sdiff_of_subset hsub, Finset.card_image_of_injOn hinj, hA.more, hA.size]
    omega
  obtain ⟨j, hj⟩ := Finset.card_eq_one.mp hcard
  have hmem : ∀ d : Digit, (Has digits d.val ∧ ∀ c : Fin 81, Has cells c.val → t[c] ≠ d.get) ↔ d.val = j := by
    intro d
    rw [← Finset.mem_singleton, ← hj, Finset.mem_sdiff, Finset.mem_image]
    refine and_congr_right' ⟨?_, ?_⟩
    · rintro hn ⟨i, hi, e⟩
      obtain ⟨c, rfl, -⟩ := hA.inHouse i hi
      rw [hg] at e
      exact hn c hi (by rw [hfd, Fin.ext e])
    · intro hn c hcx e
      apply hn ⟨c.val, hcx, ?_⟩
      rw [hg, get_inj _ _ ((hfd c).symm.trans e)]
  have hj' : j ∈ elems digits := by
    have : j ∈ elems digits \ (elems cells).image g := by rw [hj]; exact Finset.mem_singleton_self j
    exact (Finset.mem_sdiff.mp this).1
  obtain ⟨d, rfl, -⟩ := (hA.together j).mp hj'
  exact ⟨d, (hmem d).mpr rfl, fun d' hd' => Fin.ext ((hmem d').mp hd')⟩

end Verif.AlmostLocked
