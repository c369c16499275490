import Verif.Model.Links
import Verif.Spec.Links
import Verif.Proofs.StratSubsets
import Verif.Proofs.PatternSound
import Mathlib.Tactic.Tauto

/-! Lemmas about direct links. -/
namespace Verif.Links

open Verif Strat Bitset Pattern

theorem mapM_flatten {α β : Type} {f : α → Res (List β)} {P : α → β → Prop} : ∀ l : List α,
    (∀ a ∈ l, ∃ bs, f a = .ok bs ∧ ∀ b, b ∈ bs ↔ P a b) →
    ∃ bss, l.mapM f = .ok bss ∧ ∀ b, b ∈ bss.flatten ↔ ∃ a ∈ l, P a b
  | [], _ => ⟨[], rfl, fun b => by simp⟩
  | a :: l, h => by
    obtain ⟨bs, e, hb⟩ := h a (by simp)
    obtain ⟨bss, e', hbs⟩ := mapM_flatten l (fun x hx => h x (by simp [hx]))
    refine ⟨bs :: bss, ?_, fun b => ?_⟩
    · rw [List.mapM_cons, e, Res.ok_bind, e', Res.ok_bind]
      rfl
    · rw [List.flatten_cons, List.mem_append, hb, hbs]
      simp

theorem linksTo_spec {a : BitVec 16} (hf : Fits 9 a) {i : Fin 9} (hi : a.getLsbD i.val = true) :
    ∃ r, linksTo (symmDiff a (asSet 16 i.val)) = .ok r ∧
      (∀ j : Fin 9, j ∈ r.2 ↔ j ≠ i ∧ a.getLsbD j.val = true) ∧
      (r.1 = true ↔ ∃ j : Fin 9, i ≠ j ∧ ∀ k : Fin 9, a.getLsbD k.val = true ↔ k = i ∨ k = j) := by
  have hb : ∀ j, (symmDiff a (asSet 16 i.val)).getLsbD j = true ↔ a.getLsbD j = true ∧ j ≠ i.val := by
    intro j
    rw [← mem_elems, elems_symmDiff, Finset.mem_symmDiff, mem_elems, mem_elems, bit_asSet (by omega)]
    constructor
    · rintro (⟨h1, h2⟩ | ⟨h1, h2⟩)
      · exact ⟨h1, fun e => h2 e.symm⟩
      · subst h1; exact absurd hi h2
    · rintro ⟨h1, h2⟩
      exact Or.inl ⟨h1, fun e => h2 e.symm⟩
  have hfo : Fits 9 (symmDiff a (asSet 16 i.val)) := fun j hj => hf j ((hb j).mp hj).1
  have hitems := items_eq (by decide) (by decide) hfo
  have hmems : ∀ j : Fin 9, j ∈ mems 9 (symmDiff a (asSet 16 i.val)) ↔ j ≠ i ∧ a.getLsbD j.val = true := by
    intro j
    rw [mem_mems, hb, ne_eq, ne_eq, Fin.ext_iff]
    tauto
  have hcard : ∀ j : Fin 9, i ≠ j → (∀ k : Fin 9, a.getLsbD k.val = true ↔ k = i ∨ k = j) →
      ∀ k, (symmDiff a (asSet 16 i.val)).getLsbD k = true ↔ k = j.val := by
    intro j hne h k
    rw [hb]
    constructor
    · rintro ⟨h1, h2⟩
      rcases (h ⟨k, hf k h1⟩).mp h1 with e | e
      · exact absurd (congrArg Fin.val e) h2
      · exact congrArg Fin.val e
    · rintro rfl
      exact ⟨(h j).mpr (Or.inr rfl), fun e => hne (Fin.ext e.symm)⟩
  unfold linksTo
  rcases uniqueItem_spec (by decide) (by decide) (by decide) hfo with ⟨h, e⟩ | ⟨j, h, e⟩ | ⟨h, e⟩
  · rw [e, Res.ok_bind]
    refine ⟨(false, mems 9 (symmDiff a (asSet 16 i.val))), by simp only [hitems, Res.ok_bind], hmems, ?_⟩
    refine ⟨fun hh => (by cases hh), ?_⟩
    rintro ⟨j, hne, hj⟩
    have := (hcard j hne hj j.val).mpr rfl
    rw [h] at this
    simp at this
  · rw [e, Res.ok_bind]
    have hij : j.val ≠ i.val := ((hb j.val).mp ((h j.val).mpr rfl)).2
    refine ⟨_, rfl, fun k => ?_, ?_⟩
    · rw [← hmems, mem_mems, h, List.mem_singleton, Fin.ext_iff]
    · refine ⟨fun _ => ⟨j, fun e => hij (congrArg Fin.val e).symm, fun k => ?_⟩, fun _ => rfl⟩
      have hk := (hb k.val).symm.trans (h k.val)
      constructor
      · intro hk1
        by_cases hki : k = i
        · exact Or.inl hki
        · exact Or.inr (Fin.ext (hk.mp ⟨hk1, fun e => hki (Fin.ext e)⟩))
      · rintro (rfl | rfl)
        · exact hi
        · exact (hk.mpr rfl).1
  · rw [e, Res.ok_bind]
    refine ⟨(false, mems 9 (symmDiff a (asSet 16 i.val))), by simp only [hitems, Res.ok_bind], hmems, ?_⟩
    refine ⟨fun hh => (by cases hh), ?_⟩
    rintro ⟨j, hne, hj⟩
    have : elems (symmDiff a (asSet 16 i.val)) ⊆ {j.val} := by
      intro k hk
      rw [Finset.mem_singleton]
      exact (hcard j hne hj k).mp (mem_elems.mp hk)
    have := Finset.card_le_card this
    rw [Finset.card_singleton] at this
    omega

variable {cp : Vector DigitSet 81} {hp : Vector (Vector PosSet 9) 27}

/-- The candidates of a table. -/
def Cand (cp : Vector DigitSet 81) (c : Fin 81) (d : Digit) : Prop := cp[c].getLsbD d.val = true

/-- Both tables have the same candidates. -/
structure Same (cp : Vector DigitSet 81) (hp : Vector (Vector PosSet 9) 27) : Prop where
  fits : ∀ c : Fin 81, Fits 9 cp[c]
  fits' : ∀ (h : Fin 27) (d : Digit), Fits 9 hp[h][d]
  same : ∀ (h : Fin 27) (d : Digit) (p : Fin 9), hp[h][d].getLsbD p.val = true ↔ Cand cp (Pos.houseCellAt h p) d

theorem zip_houses (c : Fin 81) (h : Fin 27) (p : Fin 9) :
    (h, p) ∈ (Pos.houses c).zip [Pos.rowPos c, Pos.colPos c, Pos.blockPos c] ↔ Pos.houseCellAt h p = c := by
  revert h p c
  decide +kernel

theorem hca_inj (h : Fin 27) (p q : Fin 9) : Pos.houseCellAt h p = Pos.houseCellAt h q ↔ p = q := by
  revert h p q
  decide +kernel

theorem candidateLinks_spec (hs : Same cp hp) {e : Candidate} (he : Cand cp e.cell e.digit) :
    ∃ l, candidateLinks cp hp e = .ok l ∧ ∀ x : Bool × Candidate × Candidate, x ∈ l ↔ x.2.1 = e ∧
      ((x.2.2.cell = e.cell ∧ x.2.2.digit ≠ e.digit ∧ Cand cp e.cell x.2.2.digit ∧
        (x.1 = true ↔ ∃ d, TwoInCell (Cand cp) e.cell e.digit d)) ∨
      (¬ (∃ d, TwoInCell (Cand cp) e.cell e.digit d) ∧ x.2.2.digit = e.digit ∧ x.2.2.cell ≠ e.cell ∧ ∃ h : Fin 27,
        InHouse h e.cell ∧ InHouse h x.2.2.cell ∧ Cand cp x.2.2.cell e.digit ∧
        (x.1 = true ↔ ∃ c, TwoInHouse (Cand cp) h e.digit e.cell c))) := by
  obtain ⟨⟨strong, digits⟩, e1, hd, hst⟩ := linksTo_spec (hs.fits e.cell) he
  have hst : strong = true ↔ ∃ d, TwoInCell (Cand cp) e.cell e.digit d := hst
  have hd : ∀ j : Fin 9, j ∈ digits ↔ j ≠ e.digit ∧ cp[e.cell].getLsbD j.val = true := hd
  have hcell : ∀ x : Bool × Candidate × Candidate, x ∈ digits.map (fun digit => (strong, e, (⟨e.cell, digit⟩ : Candidate))) ↔
      x.2.1 = e ∧ x.2.2.cell = e.cell ∧ x.2.2.digit ≠ e.digit ∧ Cand cp e.cell x.2.2.digit ∧
        (x.1 = true ↔ ∃ d, TwoInCell (Cand cp) e.cell e.digit d) := by
    intro x
    rw [List.mem_map]
    constructor
    · rintro ⟨d, hdd, rfl⟩
      obtain ⟨h1, h2⟩ := (hd d).mp hdd
      exact ⟨rfl, rfl, h1, h2, hst⟩
    · obtain ⟨b, e1, ⟨c, d⟩⟩ := x
      rintro ⟨h0, h0', h1, h2, h3⟩
      have h0 : e1 = e := h0
      have h0' : c = e.cell := h0'
      subst h0 h0'
      refine ⟨d, (hd d).mpr ⟨h1, h2⟩, ?_⟩
      rw [show strong = b from Bool.eq_iff_iff.mpr (hst.trans h3.symm)]
  unfold candidateLinks
  rw [e1, Res.ok_bind]
  by_cases hstrong : strong = true
  · subst hstrong
    refine ⟨_, if_pos rfl, fun x => ?_⟩
    rw [hcell]
    have := hst.mp rfl
    tauto
  · obtain ⟨bss, e2, hbss⟩ := mapM_flatten
      (f := fun (x : Fin 27 × PosSet) => do
        let (strong, positions) ← linksTo x.2
        Res.ok (positions.map (fun pos => (strong, e, (⟨Pos.houseCellAt x.1 pos, e.digit⟩ : Candidate)))))
      (P := fun a x => x.2.1 = e ∧ x.2.2.digit = e.digit ∧ x.2.2.cell ≠ e.cell ∧ InHouse a.1 x.2.2.cell ∧
        Cand cp x.2.2.cell e.digit ∧ (x.1 = true ↔ ∃ c, TwoInHouse (Cand cp) a.1 e.digit e.cell c))
      (conflictingHousePositions e hp) (by
        intro a ha
        unfold conflictingHousePositions at ha
        obtain ⟨⟨house, pos⟩, hmem, rfl⟩ := List.mem_map.mp ha
        have hca := (zip_houses _ _ _).mp hmem
        have hbit : hp[house][e.digit].getLsbD pos.val = true := by
          rw [hs.same, hca]; exact he
        obtain ⟨⟨strong, positions⟩, e2, hpos, hst2⟩ := linksTo_spec (hs.fits' house e.digit) hbit
        have hpos : ∀ j : Fin 9, j ∈ positions ↔ j ≠ pos ∧ hp[house][e.digit].getLsbD j.val = true := hpos
        have hst2 : strong = true ↔ ∃ c, TwoInHouse (Cand cp) house e.digit e.cell c := by
          refine hst2.trans ⟨?_, ?_⟩
          · rintro ⟨j, hne, hj⟩
            refine ⟨Pos.houseCellAt house j, ?_, ?_, (hca_inHouse house j).1, ?_⟩
            · rw [← hca]; exact fun e => hne ((hca_inj _ _ _).mp e)
            · rw [← hca]; exact (hca_inHouse house pos).1
            · intro x hx
              obtain ⟨q, rfl⟩ := inHouse_hca' house x hx
              rw [← hs.same, hj, ← hca, hca_inj, hca_inj]
          · rintro ⟨c, hne, -, hin, hc⟩
            obtain ⟨j, rfl⟩ := inHouse_hca' house c hin
            refine ⟨j, fun e => hne (by rw [← hca, e]), fun k => ?_⟩
            rw [hs.same, hc _ (hca_inHouse house k).1, ← hca, hca_inj, hca_inj]
        refine ⟨positions.map (fun pos => (strong, e, (⟨Pos.houseCellAt house pos, e.digit⟩ : Candidate))), ?_, fun x => ?_⟩
        · show (linksTo (symmDiff hp[house][e.digit] (asSet 16 pos.val)) >>= _) = _
          rw [e2]
          rfl
        · rw [List.mem_map]
          constructor
          · rintro ⟨q, hq, rfl⟩
            obtain ⟨h1, h2⟩ := (hpos q).mp hq
            refine ⟨rfl, rfl, ?_, (hca_inHouse house q).1, (hs.same _ _ _).mp h2, hst2⟩
            show Pos.houseCellAt house q ≠ e.cell
            rw [← hca]
            exact fun e => h1 ((hca_inj _ _ _).mp e)
          · obtain ⟨b, e1, ⟨c, d⟩⟩ := x
            rintro ⟨h0, h0', hne, hin, hc, hb⟩
            have h0 : e1 = e := h0
            have h0' : d = e.digit := h0'
            subst h0 h0'
            obtain ⟨q, rfl⟩ := inHouse_hca' house c hin
            refine ⟨q, (hpos q).mpr ⟨?_, (hs.same _ _ _).mpr hc⟩, ?_⟩
            · rintro rfl; exact hne hca
            · rw [show strong = b from Bool.eq_iff_iff.mpr (hst2.trans hb.symm)])
    have hstrong' : strong = false := by simpa using hstrong
    subst hstrong'
    refine ⟨_, (congrArg (· >>= _) e2).trans rfl, fun x => ?_⟩
    rw [List.mem_append, hcell, hbss]
    have hno : ¬ ∃ d, TwoInCell (Cand cp) e.cell e.digit d := fun h => by cases hst.mpr h
    constructor
    · rintro (h | ⟨a, ha, h1, h2, h3, h4, h5, h6⟩)
      · exact ⟨h.1, Or.inl h.2⟩
      · unfold conflictingHousePositions at ha
        obtain ⟨⟨house, pos⟩, hmem, rfl⟩ := List.mem_map.mp ha
        have hca := (zip_houses _ _ _).mp hmem
        exact ⟨h1, Or.inr ⟨hno, h2, h3, house, by rw [← hca]; exact (hca_inHouse house pos).1, h4, h5, h6⟩⟩
    · rintro ⟨h0, h | ⟨-, h2, h3, house, hin, h4, h5, h6⟩⟩
      · exact Or.inl ⟨h0, h⟩
      · obtain ⟨pos, hca⟩ := inHouse_hca' house e.cell hin
        refine Or.inr ⟨(house, symmDiff hp[house][e.digit] (asSet 16 pos.val)), ?_, h0, h2, h3, h4, h5, h6⟩
        exact List.mem_map.mpr ⟨(house, pos), (zip_houses _ _ _).mpr hca, rfl⟩

theorem find_spec (hs : Same cp hp) :
    ∃ l, findDirectLinks cp hp = .ok l ∧ ∀ x : Bool × Candidate × Candidate, x ∈ l ↔ Cand cp x.2.1.cell x.2.1.digit ∧
      ((x.2.2.cell = x.2.1.cell ∧ x.2.2.digit ≠ x.2.1.digit ∧ Cand cp x.2.1.cell x.2.2.digit ∧
        (x.1 = true ↔ ∃ d, TwoInCell (Cand cp) x.2.1.cell x.2.1.digit d)) ∨
      (¬ (∃ d, TwoInCell (Cand cp) x.2.1.cell x.2.1.digit d) ∧ x.2.2.digit = x.2.1.digit ∧ x.2.2.cell ≠ x.2.1.cell ∧ ∃ h : Fin 27,
        InHouse h x.2.1.cell ∧ InHouse h x.2.2.cell ∧ Cand cp x.2.2.cell x.2.1.digit ∧
        (x.1 = true ↔ ∃ c, TwoInHouse (Cand cp) h x.2.1.digit x.2.1.cell c))) := by
  obtain ⟨bss, e, h⟩ := mapM_flatten
    (f := fun cell : Fin 81 => do
      let digits ← items 9 cp[cell]
      let links ← digits.mapM (fun digit => candidateLinks cp hp ⟨cell, digit⟩)
      Res.ok links.flatten)
    (P := fun cell x => ∃ d, d ∈ mems 9 cp[cell] ∧ ∃ l, candidateLinks cp hp ⟨cell, d⟩ = .ok l ∧ x ∈ l)
    (List.finRange 81) (by
      intro cell _
      rw [items_eq (by decide) (by decide) (hs.fits cell), Res.ok_bind]
      obtain ⟨bss, e, h⟩ := mapM_flatten (f := fun digit : Digit => candidateLinks cp hp ⟨cell, digit⟩)
        (P := fun d x => ∃ l, candidateLinks cp hp ⟨cell, d⟩ = .ok l ∧ x ∈ l) (mems 9 cp[cell]) (by
          intro d hd
          obtain ⟨l, e, -⟩ := candidateLinks_spec hs (e := ⟨cell, d⟩) (mem_mems.mp hd)
          refine ⟨l, e, fun x => ⟨fun hx => ⟨l, e, hx⟩, ?_⟩⟩
          rintro ⟨l', e', hx⟩
          rw [e] at e'
          cases e'
          exact hx)
      refine ⟨bss.flatten, ?_, h⟩
      exact (congrArg (· >>= _) e).trans rfl)
  refine ⟨bss.flatten, (congrArg (· >>= _) e).trans rfl, fun x => ?_⟩
  rw [h]
  constructor
  · rintro ⟨cell, -, d, hd, l, e, hx⟩
    have hc : Cand cp cell d := mem_mems.mp hd
    obtain ⟨l', e', hl⟩ := candidateLinks_spec hs (e := ⟨cell, d⟩) hc
    rw [e] at e'
    cases e'
    obtain ⟨h1, h2⟩ := (hl x).mp hx
    rw [h1]
    exact ⟨hc, h2⟩
  · rintro ⟨hc, hx⟩
    obtain ⟨l, e, hl⟩ := candidateLinks_spec hs hc
    exact ⟨x.2.1.cell, List.mem_finRange _, x.2.1.digit, mem_mems.mpr hc, l, e, (hl x).mpr ⟨rfl, hx⟩⟩

end Verif.Links
