import Verif.Proofs.StratSearch
import Verif.Spec.Patterns

/-! # The strategy solver: naked and hidden subsets -/
namespace Verif.Strat

open Bitset Generator

theorem hca_inHouse : ∀ (h : Fin 27) (p : Fin 9),
    Pattern.InHouse h (Pos.houseCellAt h p) ∧ Pattern.posIn h (Pos.houseCellAt h p) = p.val := by decide +kernel

theorem inHouse_hca' : ∀ (h : Fin 27) (c : Fin 81), Pattern.InHouse h c →
    ∃ p : Fin 9, Pos.houseCellAt h p = c := by decide +kernel

theorem inHouse_hca {h : Fin 27} {c : Fin 81} (hc : Pattern.InHouse h c) :
    ∃ p : Fin 9, Pos.houseCellAt h p = c ∧ Pattern.posIn h c = p.val := by
  obtain ⟨p, rfl⟩ := inHouse_hca' h c hc
  exact ⟨p, rfl, (hca_inHouse h p).2⟩

theorem hca_inj {h : Fin 27} {p q : Fin 9} (e : Pos.houseCellAt h p = Pos.houseCellAt h q) : p = q := by
  have h1 := (hca_inHouse h p).2
  rw [e, (hca_inHouse h q).2] at h1
  exact (Fin.ext h1).symm

/-- The digit in a cell of a solved grid. -/
def dig (t : Grid) (c : Fin 81) : Digit := ⟨(t[c].toNat - 1) % 9, by omega⟩

theorem dig_spec {t : Grid} (ht : Solved t) (c : Fin 81) : t[c] = (dig t c).get := by
  obtain ⟨d, hd⟩ := Digit.exists_get (ht.1 c)
  have : dig t c = d := by
    apply Fin.ext
    have := Digit.get_toNat d
    have h9 := d.isLt
    show (t[c].toNat - 1) % 9 = d.val
    rw [hd]
    omega
  rw [this]
  exact hd

theorem dig_eq {t : Grid} (ht : Solved t) {c : Fin 81} {d : Digit} (h : t[c] = d.get) : dig t c = d :=
  Digit.get_inj ((dig_spec ht c).symm.trans h)

theorem dig_inj {t : Grid} (ht : Solved t) (h : Fin 27) :
    Function.Injective (fun p => dig t (Pos.houseCellAt h p)) := by
  intro p q e
  by_contra hne
  refine ht.2 (Pos.houseCellAt h p) (Pos.houseCellAt h q) (fun hc => hne (hca_inj hc)) (sameHouse_of_hca q p h) ?_
  rw [dig_spec ht, dig_spec ht (Pos.houseCellAt h q)]
  exact congrArg Digit.get e

theorem exists_pos {t : Grid} (ht : Solved t) (h : Fin 27) (d : Digit) : ∃ p, t[Pos.houseCellAt h p] = d.get := by
  obtain ⟨p, hp⟩ := Finite.injective_iff_surjective.mp (dig_inj ht h) d
  refine ⟨p, ?_⟩
  rw [dig_spec ht]
  exact congrArg Digit.get hp

/-- The elements of a set of nine. -/
def fset {w : Nat} (a : BitVec w) (n : Nat) : Finset (Fin n) := Finset.univ.filter (fun i => a.getLsbD i.val = true)

theorem mem_fset {w n : Nat} {a : BitVec w} {i : Fin n} : i ∈ fset a n ↔ a.getLsbD i.val = true := by simp [fset]

theorem card_fset {w n : Nat} {a : BitVec w} (ha : Fits n a) : (fset a n).card = (elems a).card := by
  rw [← length_mems ha, ← List.toFinset_card_of_nodup (nodup_mems a)]
  congr 1
  ext i
  rw [mem_fset, List.mem_toFinset, mem_mems]

/-- An injective map takes `P` onto `D` if they have the same size. -/
theorem pigeon {α β : Type} [DecidableEq β] {P : Finset α} {D : Finset β} {f : α → β} (hf : Function.Injective f)
    (hmap : ∀ p ∈ P, f p ∈ D) (hcard : D.card ≤ P.card) {q : α} (hq : f q ∈ D) : q ∈ P := by
  have hsub : P.image f ⊆ D := by
    intro x hx
    obtain ⟨p, hp, rfl⟩ := Finset.mem_image.mp hx
    exact hmap p hp
  have heq := Finset.eq_of_subset_of_card_le hsub (by rwa [Finset.card_image_of_injective _ hf])
  rw [← heq] at hq
  obtain ⟨p, hp, he⟩ := Finset.mem_image.mp hq
  rwa [← hf he]

theorem bit_compl {a : BitVec 16} (i : Fin 9) : (Bitset.compl 9 a).getLsbD i.val = true ↔ ¬ a.getLsbD i.val = true := by
  unfold Bitset.compl
  rw [bit_without, Bool.and_eq_true, bit_all (by omega) (by omega)]
  simp

theorem fits_compl (a : BitVec 16) : Fits 9 (Bitset.compl 9 a) := (fits_all (by omega) (by omega)).without

theorem has_iff {w : Nat} {a : BitVec w} {i : Nat} : Pattern.Has a i ↔ a.getLsbD i = true := by
  unfold Pattern.Has
  exact mem_elems

/-! ## Naked subsets -/

/-- What a combination of cells satisfies. -/
structure NakedAcc (cp : Vector DigitSet 81) (h : Fin 27) (a : PosSet × DigitSet) : Prop where
  fits1 : Fits 9 a.1
  fits2 : Fits 9 a.2
  poss : ∀ p : Fin 9, a.1.getLsbD p.val = true → cp[Pos.houseCellAt h p] ≠ 0#16 ∧
    ∀ i, cp[Pos.houseCellAt h p].getLsbD i = true → a.2.getLsbD i = true

theorem nakedStep_post {cp : Vector DigitSet 81} (hf : ∀ c : Fin 81, Fits 9 cp[c]) (h : Fin 27) (a : PosSet × DigitSet)
    (pos : Fin 9) (ha : NakedAcc cp h a) :
    Res.Post (nakedStep cp h a pos) (fun r => ∀ a', r = some a' → NakedAcc cp h a') False := by
  unfold nakedStep
  dsimp only
  split
  · intro a' h'; cases h'
  · rename_i hne
    rw [isEmpty_iff (by omega)] at hne
    intro a' h'
    cases h'
    refine ⟨ha.fits1.union (fits_asSet (by omega) pos.isLt), ha.fits2.union (hf _), ?_⟩
    intro p hp
    simp only [bit_union, Bool.or_eq_true] at hp ⊢
    rcases hp with hp | hp
    · exact ⟨(ha.poss p hp).1, fun i hi => Or.inl ((ha.poss p hp).2 i hi)⟩
    · rw [bit_asSet (by omega)] at hp
      have hp := Fin.ext hp
      subst hp
      exact ⟨hne, fun i hi => Or.inr hi⟩

theorem naked_refuted {cp : Vector DigitSet 81} {h : Fin 27} {a : PosSet × DigitSet} (ha : NakedAcc cp h a)
    (hcard : (elems a.2).card = (elems a.1).card) {t : Grid} (ht : CpOK cp t) {q : Fin 9} {d : Digit}
    (hq : ¬ a.1.getLsbD q.val = true) (hd : a.2.getLsbD d.val = true) : t[Pos.houseCellAt h q] ≠ d.get := by
  intro he
  rw [← card_fset ha.fits1, ← card_fset ha.fits2] at hcard
  refine hq (mem_fset.mp (pigeon (dig_inj ht.solved h) (P := fset a.1 9) (D := fset a.2 9) ?_ (by omega) (q := q) ?_))
  · intro p hp
    rw [mem_fset] at hp ⊢
    obtain ⟨h1, h2⟩ := ha.poss p hp
    rcases ht.poss _ _ (dig_spec ht.solved (Pos.houseCellAt h p)) with h3 | h3
    · exact absurd h3 h1
    · exact h2 _ h3
  · rw [mem_fset, dig_eq ht.solved he]
    exact hd

theorem slice_with {mk : Nat × Nat → RangeDeduction} {mk' : List Candidate → Deduction (List Candidate)}
    (h : ∀ rg elim, withSlices (mk rg) elim = (slice elim rg >>= fun l => .ok (mk' l))) :
    ∀ rg elim l, slice elim rg = .ok l → withSlices (mk rg) elim = .ok (mk' l) := by
  intro rg elim l hl
  rw [h, hl]
  rfl

/-- The conflicts of a naked subset. -/
theorem onNakedSubset_eq {cp : Vector DigitSet 81} (hf : ∀ c : Fin 81, Fits 9 cp[c]) (h : Fin 27) (s : Solver)
    (a : PosSet × DigitSet) : ∃ l : List Candidate,
    onNakedSubset cp h s a.1 a.2 = .ok (s.enterConflicts l (fun rg => .subsets h a.1 a.2 rg)) ∧
    ∀ e, e ∈ l ↔ ∃ q : Fin 9, ¬ a.1.getLsbD q.val = true ∧ e.cell = Pos.houseCellAt h q ∧
      cp[e.cell].getLsbD e.digit.val = true ∧ a.2.getLsbD e.digit.val = true := by
  unfold onNakedSubset
  rw [items_eq (by omega) (by omega) (fits_compl a.1), Res.ok_bind,
    flatMapM_ok _ (fun pos _ => cellConflicts_ok (hf _) a.2), Res.ok_bind]
  refine ⟨_, rfl, fun e => ?_⟩
  rw [List.mem_flatMap]
  constructor
  · rintro ⟨q, hq, he⟩
    rw [mem_mems, bit_compl] at hq
    rw [mem_cellConflicts] at he
    refine ⟨q, hq, he.1, ?_, he.2.2⟩
    rw [show cp[e.cell] = cp[Pos.houseCellAt h q] from congrArg (fun c : Fin 81 => cp[c]) he.1]
    exact he.2.1
  · rintro ⟨q, hq, he, hb, hd⟩
    refine ⟨q, by rw [mem_mems, bit_compl]; exact hq, ?_⟩
    rw [mem_cellConflicts]
    refine ⟨he, ?_, hd⟩
    rwa [show cp[e.cell] = cp[Pos.houseCellAt h q] from congrArg (fun c : Fin 81 => cp[c]) he] at hb

theorem onNakedSubset_post {P : Candidate → Prop} {Q : Deduction (List Candidate) → Prop} {cp : Vector DigitSet 81}
    (hf : ∀ c : Fin 81, Fits 9 cp[c]) (h : Fin 27) (s : Solver) {a : PosSet × DigitSet}
    (hP : ∀ (q : Fin 9) (d : Digit), ¬ a.1.getLsbD q.val = true → a.2.getLsbD d.val = true →
      cp[Pos.houseCellAt h q].getLsbD d.val = true → P ⟨Pos.houseCellAt h q, d⟩)
    (hQ : ∀ l : List Candidate, l ≠ [] → (∀ e, e ∈ l ↔ ∃ q : Fin 9, ¬ a.1.getLsbD q.val = true ∧
      e.cell = Pos.houseCellAt h q ∧ cp[e.cell].getLsbD e.digit.val = true ∧ a.2.getLsbD e.digit.val = true) →
      Q (.subsets h a.1 a.2 l)) :
    Res.Post (onNakedSubset cp h s a.1 a.2) (fun r => Ext P Q s r.1) False := by
  obtain ⟨l, e1, hmem⟩ := onNakedSubset_eq hf h s a
  rw [e1]
  refine (enterConflicts_ext s (fun l => .subsets h a.1 a.2 l) (slice_with fun rg elim => rfl) (fun _ => rfl) ?_ ?_).1
  · intro e he
    rw [hmem] at he
    obtain ⟨q, hq, he, hb, hd⟩ := he
    obtain ⟨c, d⟩ := e
    subst he
    exact hP q d hq hd hb
  · intro hn
    exact hQ _ hn hmem

theorem len_eq_iff {a : BitVec 16} {size : UInt8} : len a = size ↔ (elems a).card = size.toNat := by
  rw [← len_eq_card (by omega), UInt8.toNat_inj]

/-- A search for naked subsets in a house. -/
theorem nakedWalk_post {P : Candidate → Prop} {Q : Deduction (List Candidate) → Prop} {cp : Vector DigitSet 81}
    (hf : ∀ c : Fin 81, Fits 9 cp[c]) (size : UInt8) (stop : Bool) (h : Fin 27) (s0 s : Solver) (hs : Ext P Q s0 s)
    (hP : ∀ (a : PosSet × DigitSet), NakedAcc cp h a → (elems a.1).card = size.toNat → (elems a.2).card = size.toNat →
      ∀ (q : Fin 9) (d : Digit), ¬ a.1.getLsbD q.val = true → a.2.getLsbD d.val = true →
      cp[Pos.houseCellAt h q].getLsbD d.val = true → P ⟨Pos.houseCellAt h q, d⟩)
    (hQ : ∀ (a : PosSet × DigitSet), NakedAcc cp h a → (elems a.1).card = size.toNat → (elems a.2).card = size.toNat →
      ∀ l : List Candidate, l ≠ [] → (∀ e, e ∈ l ↔ ∃ q : Fin 9, ¬ a.1.getLsbD q.val = true ∧
      e.cell = Pos.houseCellAt h q ∧ cp[e.cell].getLsbD e.digit.val = true ∧ a.2.getLsbD e.digit.val = true) →
      Q (.subsets h a.1 a.2 l)) (l : List (Fin 9)) :
    Res.Post (walk (nakedVisit cp size stop h) (nakedStep cp h) l (NONE 16, NONE 16) s) (fun r => Ext P Q s0 r.1)
      False := by
  refine walk_post (Ext P Q s0) (NakedAcc cp h) l ?_ (fun a x _ ha => nakedStep_post hf h a x ha) _ s
    ⟨fits_none, fits_none, fun p hp => by rw [bit_none] at hp; cases hp⟩ hs
  intro a s ha hs
  unfold nakedVisit
  split
  · exact hs
  · split
    · rename_i hlen
      obtain ⟨h1, h2⟩ := hlen
      rw [h1] at h2
      rw [len_eq_iff] at h1 h2
      refine Res.Post.bind (onNakedSubset_post hf h s (hP a ha h1 h2) (hQ a ha h1 h2)) ?_
      rintro ⟨s1, found⟩ h1
      show Res.Post (if (found && stop) = true then _ else _) _ _
      split <;> exact hs.trans h1
    · exact hs

/-! ## Hidden subsets -/

/-- What a combination of digits satisfies. -/
structure HiddenAcc (poss : Vector PosSet 9) (a : DigitSet × PosSet) : Prop where
  fits1 : Fits 9 a.1
  fits2 : Fits 9 a.2
  poss : ∀ d : Digit, a.1.getLsbD d.val = true → poss[d] ≠ 0#16 ∧
    ∀ i, poss[d].getLsbD i = true → a.2.getLsbD i = true

theorem hiddenStep_post {poss : Vector PosSet 9} (hf : ∀ d : Digit, Fits 9 poss[d]) (a : DigitSet × PosSet)
    (d : Digit) (ha : HiddenAcc poss a) :
    Res.Post (hiddenStep poss a d) (fun r => ∀ a', r = some a' → HiddenAcc poss a') False := by
  unfold hiddenStep
  split
  · intro a' h'; cases h'
  · rename_i hne
    rw [isEmpty_iff (by omega)] at hne
    intro a' h'
    cases h'
    refine ⟨ha.fits1.union (fits_asSet (by omega) d.isLt), ha.fits2.union (hf _), ?_⟩
    intro p hp
    simp only [bit_union, Bool.or_eq_true] at hp ⊢
    rcases hp with hp | hp
    · exact ⟨(ha.poss p hp).1, fun i hi => Or.inl ((ha.poss p hp).2 i hi)⟩
    · rw [bit_asSet (by omega)] at hp
      have hp := Fin.ext hp
      subst hp
      exact ⟨hne, fun i hi => Or.inr hi⟩

theorem hidden_refuted {hp : HousePoss} {h : Fin 27} {a : DigitSet × PosSet} (ha : HiddenAcc hp[h] a)
    (hcard : (elems a.2).card = (elems a.1).card) {t : Grid} (ht : Solved t) (hpt : HpOK hp t) {q : Fin 9} {d : Digit}
    (hq : a.2.getLsbD q.val = true) (hd : ¬ a.1.getLsbD d.val = true) : t[Pos.houseCellAt h q] ≠ d.get := by
  intro he
  rw [← card_fset ha.fits1, ← card_fset ha.fits2] at hcard
  choose g hg using exists_pos ht h
  have hinj : Function.Injective g := by
    intro x y e
    have := hg x
    rw [e, hg y] at this
    exact (Digit.get_inj this).symm
  have hgq : g d = q := dig_inj ht h (by
    show dig t (Pos.houseCellAt h (g d)) = dig t (Pos.houseCellAt h q)
    rw [dig_eq ht (hg d), dig_eq ht he])
  refine hd (mem_fset.mp (pigeon hinj (P := fset a.1 9) (D := fset a.2 9) ?_ (by omega) (q := d) ?_))
  · intro p hp'
    rw [mem_fset] at hp' ⊢
    obtain ⟨h1, h2⟩ := ha.poss p hp'
    rcases hpt h p (g p) (hg p) with h3 | h3
    · exact absurd h3 h1
    · exact h2 _ h3
  · rw [mem_fset, hgq]
    exact hq

/-- The conflicts of a hidden subset. -/
theorem onHiddenSubset_eq {poss : Vector PosSet 9} (hf : ∀ d : Digit, Fits 9 poss[d]) (h : Fin 27) (s : Solver)
    (a : DigitSet × PosSet) : ∃ l : List Candidate,
    onHiddenSubset poss h s a.1 a.2 = .ok (s.enterConflicts l (fun rg => .subsets h a.2 a.1 rg)) ∧
    ∀ e, e ∈ l ↔ ∃ q : Fin 9, a.2.getLsbD q.val = true ∧ e.cell = Pos.houseCellAt h q ∧
      poss[e.digit].getLsbD q.val = true ∧ ¬ a.1.getLsbD e.digit.val = true := by
  unfold onHiddenSubset
  rw [items_eq (by omega) (by omega) (fits_compl a.1), Res.ok_bind,
    flatMapM_ok (g := fun d => (mems 9 (inter poss[d] a.2)).map (fun pos => (⟨Pos.houseCellAt h pos, d⟩ : Candidate))) _
      (fun d _ => by rw [items_eq (by omega) (by omega) (hf d).inter_left, Res.ok_bind]), Res.ok_bind]
  refine ⟨_, rfl, fun e => ?_⟩
  rw [List.mem_flatMap]
  constructor
  · rintro ⟨d, hd, he⟩
    rw [mem_mems, bit_compl] at hd
    obtain ⟨q, hq, rfl⟩ := List.mem_map.mp he
    rw [mem_mems, bit_inter, Bool.and_eq_true] at hq
    exact ⟨q, hq.2, rfl, hq.1, hd⟩
  · rintro ⟨q, hq, he, hb, hd⟩
    refine ⟨e.digit, by rw [mem_mems, bit_compl]; exact hd, List.mem_map.mpr ⟨q, ?_, ?_⟩⟩
    · rw [mem_mems, bit_inter, Bool.and_eq_true]
      exact ⟨hb, hq⟩
    · rw [← he]

theorem onHiddenSubset_post {P : Candidate → Prop} {Q : Deduction (List Candidate) → Prop} {poss : Vector PosSet 9}
    (hf : ∀ d : Digit, Fits 9 poss[d]) (h : Fin 27) (s : Solver) {a : DigitSet × PosSet}
    (hP : ∀ (q : Fin 9) (d : Digit), a.2.getLsbD q.val = true → ¬ a.1.getLsbD d.val = true →
      poss[d].getLsbD q.val = true → P ⟨Pos.houseCellAt h q, d⟩)
    (hQ : ∀ l : List Candidate, l ≠ [] → (∀ e, e ∈ l ↔ ∃ q : Fin 9, a.2.getLsbD q.val = true ∧
      e.cell = Pos.houseCellAt h q ∧ poss[e.digit].getLsbD q.val = true ∧ ¬ a.1.getLsbD e.digit.val = true) →
      Q (.subsets h a.2 a.1 l)) :
    Res.Post (onHiddenSubset poss h s a.1 a.2) (fun r => Ext P Q s r.1) False := by
  obtain ⟨l, e1, hmem⟩ := onHiddenSubset_eq hf h s a
  rw [e1]
  refine (enterConflicts_ext s (fun l => .subsets h a.2 a.1 l) (slice_with fun rg elim => rfl) (fun _ => rfl) ?_ ?_).1
  · intro e he
    rw [hmem] at he
    obtain ⟨q, hq, he, hb, hd⟩ := he
    obtain ⟨c, d⟩ := e
    subst he
    exact hP q d hq hd hb
  · intro hn
    exact hQ _ hn hmem

/-- A search for hidden subsets in a house. -/
theorem hiddenWalk_post {P : Candidate → Prop} {Q : Deduction (List Candidate) → Prop} {poss : Vector PosSet 9}
    (hf : ∀ d : Digit, Fits 9 poss[d]) (size : UInt8) (stop : Bool) (h : Fin 27) (s0 s : Solver) (hs : Ext P Q s0 s)
    (hP : ∀ (a : DigitSet × PosSet), HiddenAcc poss a → (elems a.1).card = size.toNat → (elems a.2).card = size.toNat →
      ∀ (q : Fin 9) (d : Digit), a.2.getLsbD q.val = true → ¬ a.1.getLsbD d.val = true →
      poss[d].getLsbD q.val = true → P ⟨Pos.houseCellAt h q, d⟩)
    (hQ : ∀ (a : DigitSet × PosSet), HiddenAcc poss a → (elems a.1).card = size.toNat → (elems a.2).card = size.toNat →
      ∀ l : List Candidate, l ≠ [] → (∀ e, e ∈ l ↔ ∃ q : Fin 9, a.2.getLsbD q.val = true ∧
      e.cell = Pos.houseCellAt h q ∧ poss[e.digit].getLsbD q.val = true ∧ ¬ a.1.getLsbD e.digit.val = true) →
      Q (.subsets h a.2 a.1 l)) (l : List (Fin 9)) :
    Res.Post (walk (hiddenVisit poss size stop h) (hiddenStep poss) l (NONE 16, NONE 16) s) (fun r => Ext P Q s0 r.1)
      False := by
  refine walk_post (Ext P Q s0) (HiddenAcc poss) l ?_ (fun a x _ ha => hiddenStep_post hf a x ha) _ s
    ⟨fits_none, fits_none, fun p hp => by rw [bit_none] at hp; cases hp⟩ hs
  intro a s ha hs
  unfold hiddenVisit
  split
  · exact hs
  · split
    · rename_i hlen
      obtain ⟨h1, h2⟩ := hlen
      rw [len_eq_iff] at h1 h2
      refine Res.Post.bind (onHiddenSubset_post hf h s (hP a ha h1 h2) (hQ a ha h1 h2)) ?_
      rintro ⟨s1, found⟩ h1
      show Res.Post (if (found && stop) = true then _ else _) _ _
      split <;> exact hs.trans h1
    · exact hs

/-! ## The deductions -/

/-- The candidates of the cells. -/
def Cands (cp : Vector DigitSet 81) (c : Fin 81) (d : Digit) : Prop := cp[c].getLsbD d.val = true

theorem pos_of_hca : ∀ (h : Fin 27) (q : Fin 9), (match Pos.categorize h with
    | .row _ => Pos.rowPos (Pos.houseCellAt h q)
    | .col _ => Pos.colPos (Pos.houseCellAt h q)
    | .block _ => Pos.blockPos (Pos.houseCellAt h q)) = q := by decide +kernel

theorem overlaps_single {q : Fin 9} {a : PosSet} : overlaps (asSet 16 q.val) a = a.getLsbD q.val := by
  rw [Bool.eq_iff_iff, overlaps_iff]
  constructor
  · rintro ⟨i, h1, h2⟩
    rw [bit_asSet (by omega)] at h1
    subst h1
    exact h2
  · intro h
    exact ⟨q.val, (bit_asSet (by omega)).mpr rfl, h⟩

/-- The strategy of a subset deduction, by the kind and the size. -/
def subsetStrategy (hidden : Bool) (n : Nat) : Option Strategy :=
  match hidden, n with
  | false, 2 => some .nakedPairs
  | false, 3 => some .nakedTriples
  | false, 4 => some .nakedQuads
  | true, 2 => some .hiddenPairs
  | true, 3 => some .hiddenTriples
  | true, 4 => some .hiddenQuads
  | _, _ => none

theorem strategy_subsets {h : Fin 27} {positions : PosSet} {digits : DigitSet} {l : List Candidate} {hidden : Bool}
    {n : Nat} {st : Strategy} (hst : subsetStrategy hidden n = some st) (hn : (elems positions).card = n) (hl : l ≠ [])
    (hmem : ∀ e ∈ l, ∃ q : Fin 9, e.cell = Pos.houseCellAt h q ∧ positions.getLsbD q.val = hidden) :
    (Deduction.subsets h positions digits l).strategy = .ok st := by
  match l, hl with
  | c :: l, _ =>
    obtain ⟨q, hq, hb⟩ := hmem c (by simp)
    unfold Deduction.strategy
    dsimp only
    have hlen : (len positions).toNat = n := by rw [len_eq_card (by omega), hn]
    have hpos := pos_of_hca h q
    rw [← hq] at hpos
    have key : ∀ x : Fin 9, x = q → (match overlaps (asSet 16 x.val) positions, (len positions).toNat with
        | false, 2 => Res.ok Strategy.nakedPairs
        | false, 3 => .ok .nakedTriples
        | false, 4 => .ok .nakedQuads
        | true, 2 => .ok .hiddenPairs
        | true, 3 => .ok .hiddenTriples
        | true, 4 => .ok .hiddenQuads
        | _, _ => .panic) = .ok st := by
      rintro x rfl
      rw [overlaps_single, hb, hlen]
      revert hst
      unfold subsetStrategy
      split <;> intro hst <;> simp_all
    cases hcat : Pos.categorize h <;> simp only [hcat] at hpos ⊢ <;> exact key _ hpos

theorem matches_naked {cand : Fin 81 → Digit → Prop} {n : Nat} {st : Strategy} (hst : subsetStrategy false n = some st)
    {h : Fin 27} {p : PosSet} {d : DigitSet} {l : List Candidate} (hm : Pattern.NakedSubset cand n h p d l) :
    Pattern.Matches cand st (.subsets h p d l) := by
  unfold subsetStrategy at hst
  split at hst <;> first | cases hst | skip
  all_goals first | exact hm | contradiction

theorem matches_hidden {cand : Fin 81 → Digit → Prop} {n : Nat} {st : Strategy} (hst : subsetStrategy true n = some st)
    {h : Fin 27} {p : PosSet} {d : DigitSet} {l : List Candidate} (hm : Pattern.HiddenSubset cand n h p d l) :
    Pattern.Matches cand st (.subsets h p d l) := by
  unfold subsetStrategy at hst
  split at hst <;> first | cases hst | skip
  all_goals first | exact hm | contradiction

/-- A newly eliminated candidate: it was not eliminated before, no solution has it, and its cell is open. -/
def NewElim (s : Solver) (e : Candidate) : Prop :=
  e ∉ s.eliminated ∧ Refuted s.cp s.hp e ∧ (s.cp[e.cell] ≠ 0#16 ∨ ∀ x ∈ s.deduced, x.cell ≠ e.cell)

/-- The possible positions agree with the possible digits. -/
def HpCp (cp : Vector DigitSet 81) (hp : HousePoss) : Prop := ∀ (h : Fin 27) (d : Digit) (p : Fin 9),
  hp[h][d].getLsbD p.val = true ↔ cp[Pos.houseCellAt h p].getLsbD d.val = true

/-- The strategies that look at the possible positions. -/
def usesHp : Strategy → Bool
  | .hiddenPairs | .hiddenTriples | .hiddenQuads | .xWing | .swordfish | .jellyfish => true
  | _ => false

theorem usesHp_hidden {n : Nat} {st : Strategy} (h : subsetStrategy true n = some st) : usesHp st = true := by
  unfold subsetStrategy at h
  split at h <;> first | contradiction | (cases h; first | rfl | contradiction)

/-- A deduction of the strategy `st`. -/
def DedOf (st : Strategy) (cp : Vector DigitSet 81) (hp : HousePoss) (d : Deduction (List Candidate)) : Prop :=
  d.strategy = .ok st ∧ Pattern.entry d = none ∧ ((usesHp st = true → HpCp cp hp) → Pattern.Matches (Cands cp) st d)

/-- The eliminated candidates are removed from the possible digits. -/
def Removed (s : Solver) : Prop := ∀ e ∈ s.eliminated, s.cp[e.cell].getLsbD e.digit.val = false

theorem Removed.notMem {s : Solver} (h : Removed s) {e : Candidate} (hb : s.cp[e.cell].getLsbD e.digit.val = true) :
    e ∉ s.eliminated := by
  intro he
  rw [h e he] at hb
  cases hb

theorem nakedSubsets_search {s : Solver} (hf : ∀ c : Fin 81, Fits 9 s.cp[c]) (hrem : Removed s) {size : UInt8}
    {st : Strategy} (hst : subsetStrategy false size.toNat = some st) (stop : Bool) :
    Res.Post (forUntil (fun s' house =>
      if isFull 9 s.hs[house] then .ok (s', false)
      else do
        let positions ← items 9 (ALL 16 9)
        walk (nakedVisit s.cp size stop house) (nakedStep s.cp house) positions (NONE 16, NONE 16) s')
      (List.finRange 27) s) (fun r => Ext (NewElim s) (DedOf st s.cp s.hp) s r.1) False := by
  refine forUntil_post (Ext (NewElim s) (DedOf st s.cp s.hp) s) _ s (Ext.refl s) ?_
  intro s' h _ hs'
  split
  · exact hs'
  · rw [items_eq (by omega) (by omega) (fits_all (by omega) (by omega)), Res.ok_bind]
    refine nakedWalk_post hf size stop h s s' hs' ?_ ?_ _
    · intro a ha h1 h2 q d hq hd hb
      exact ⟨hrem.notMem hb, fun t ht _ => naked_refuted ha (by rw [h1, h2]) ht hq hd,
        Or.inl (ne_zero_iff.mpr ⟨_, hb⟩)⟩
    · intro a ha h1 h2 l hl hmem
      refine ⟨strategy_subsets hst h1 hl ?_, rfl, fun _ => matches_naked hst ⟨h1, h2,
        fun p hp => ha.fits1 p (has_iff.mp hp), fun d hd => ha.fits2 d (has_iff.mp hd), ?_, hl, ?_⟩⟩
      · intro e he
        obtain ⟨q, hq, he, _⟩ := (hmem e).mp he
        exact ⟨q, he, by simpa using hq⟩
      · intro c hc hp
        obtain ⟨p, rfl, hpos⟩ := inHouse_hca hc
        rw [hpos, has_iff] at hp
        obtain ⟨g1, g2⟩ := ha.poss p hp
        constructor
        · obtain ⟨i, hi⟩ := ne_zero_iff.mp g1
          exact ⟨⟨i, hf _ i hi⟩, hi⟩
        · intro d hd
          exact has_iff.mpr (g2 _ hd)
      · intro c d
        rw [hmem]
        constructor
        · rintro ⟨q, hq, rfl, hb, hd⟩
          refine ⟨⟨(hca_inHouse h q).1, ?_, has_iff.mpr hd⟩, hb⟩
          rw [(hca_inHouse h q).2, has_iff]
          exact hq
        · rintro ⟨⟨hc, hp, hd⟩, hb⟩
          obtain ⟨p, rfl, hpos⟩ := inHouse_hca hc
          rw [hpos, has_iff] at hp
          exact ⟨p, hp, rfl, hb, has_iff.mp hd⟩

theorem hiddenSubsets_search {s : Solver} (hf : ∀ (h : Fin 27) (d : Digit), Fits 9 s.hp[h][d]) (hcur : HpCurrent s)
    {size : UInt8} {st : Strategy} (hst : subsetStrategy true size.toNat = some st) (stop : Bool) :
    Res.Post (forUntil (fun s' house =>
      if isFull 9 s.hs[house] then .ok (s', false)
      else do
        let digits ← items 9 (ALL 16 9)
        walk (hiddenVisit s.hp[house] size stop house) (hiddenStep s.hp[house]) digits (NONE 16, NONE 16) s')
      (List.finRange 27) s) (fun r => Ext (NewElim s) (DedOf st s.cp s.hp) s r.1) False := by
  refine forUntil_post (Ext (NewElim s) (DedOf st s.cp s.hp) s) _ s (Ext.refl s) ?_
  intro s' h _ hs'
  split
  · exact hs'
  · rw [items_eq (by omega) (by omega) (fits_all (by omega) (by omega)), Res.ok_bind]
    refine hiddenWalk_post (hf h) size stop h s s' hs' ?_ ?_ _
    · intro a ha h1 h2 q d hq hd hb
      rw [hcur] at hb
      exact ⟨fun he => hb.1 _ he ⟨rfl, rfl⟩, fun t ht hpt => hidden_refuted ha (by rw [h1, h2]) ht.solved hpt hq hd,
        Or.inr fun x hx => (hb.2 x hx).1⟩
    · intro a ha h1 h2 l hl hmem
      refine ⟨strategy_subsets hst h2 hl ?_, rfl, fun hag' =>
        have hag := hag' (usesHp_hidden hst); matches_hidden hst ⟨h2, h1,
          fun p hp => ha.fits2 p (has_iff.mp hp), fun d hd => ha.fits1 d (has_iff.mp hd), ?_, hl, ?_⟩⟩
      · intro e he
        obtain ⟨q, hq, he, _⟩ := (hmem e).mp he
        exact ⟨q, he, hq⟩
      · intro d hd
        obtain ⟨g1, g2⟩ := ha.poss d (has_iff.mp hd)
        constructor
        · obtain ⟨i, hi⟩ := ne_zero_iff.mp g1
          refine ⟨Pos.houseCellAt h ⟨i, hf _ _ i hi⟩, (hca_inHouse h _).1, ?_⟩
          exact (hag h d ⟨i, hf _ _ i hi⟩).mp hi
        · intro c hc hb
          obtain ⟨p, rfl, hpos⟩ := inHouse_hca hc
          rw [hpos]
          exact has_iff.mpr (g2 _ ((hag h d p).mpr hb))
      · intro c d
        rw [hmem]
        constructor
        · rintro ⟨q, hq, rfl, hb, hd⟩
          refine ⟨⟨(hca_inHouse h q).1, ?_, fun hc => hd (has_iff.mp hc)⟩, (hag h d q).mp hb⟩
          rw [(hca_inHouse h q).2, has_iff]
          exact hq
        · rintro ⟨⟨hc, hp, hd⟩, hb⟩
          obtain ⟨p, rfl, hpos⟩ := inHouse_hca hc
          rw [hpos, has_iff] at hp
          exact ⟨p, hp, rfl, (hag h d p).mpr hb, fun hc => hd (has_iff.mpr hc)⟩

end Verif.Strat
