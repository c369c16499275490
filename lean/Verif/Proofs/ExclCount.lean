import Verif.Proofs.Passes
import Verif.Proofs.Confluence
import Mathlib.Data.Finset.Powerset
import Mathlib.Algebra.Order.BigOperators.Group.Finset
import Mathlib.Data.Finset.Card

/-! # Counting shapes with the candidates that they exclude -/
namespace Verif.Strat

open Bitset Generator

variable {t : Grid} {F : Fin 81 → Prop} {P : Fin 81 → Digit → Prop}

/-- A matching of two sets of the same size is onto. -/
theorem matched {A B : Finset Nat} (h : A.card = B.card) (f : Nat → Nat) (hm : ∀ a ∈ A, f a ∈ B)
    (hi : ∀ a ∈ A, ∀ a' ∈ A, f a = f a' → a = a') : A.image f = B := by
  refine Finset.eq_of_subset_of_card_le (fun b hb => ?_) ?_
  · obtain ⟨a, ha, rfl⟩ := Finset.mem_image.mp hb
    exact hm a ha
  · rw [Finset.card_image_of_injOn (fun a ha a' ha' => hi a ha a' ha'), h]

/-! ## Subsets -/

/-- The digit at a position of a house. -/
def digAt (t : Grid) (h p : Nat) : Nat := if hh : h < 27 then (dig t (cellIn ⟨h, hh⟩ p)).val else p

theorem digAt_posIn {h : Fin 27} {c : Fin 81} (hc : Pattern.InHouse h c) : digAt t h (Pattern.posIn h c) = (dig t c).val := by
  unfold digAt
  rw [dif_pos h.isLt]
  show (dig t (cellIn h _)).val = _
  rw [cellIn_posIn hc]

theorem digAt_inj (ht : Solved t) (h : Nat) : ∀ p < 9, ∀ q < 9, digAt t h p = digAt t h q → p = q := by
  intro p hp q hq e
  unfold digAt at e
  split at e
  · rename_i hh
    obtain ⟨a1, a2⟩ := cellIn_spec ⟨h, hh⟩ hp
    obtain ⟨b1, b2⟩ := cellIn_spec ⟨h, hh⟩ hq
    have := dig_unique ht (a1.same b1) (Fin.ext e)
    rw [← a2, ← b2, this]
  · exact e

/-- A way to count the pairs of a subset and an excluded candidate: two numbers for the candidate. -/
structure Coding (t : Grid) where
  x : Nat → Candidate → Nat
  y : Nat → Candidate → Nat
  σ : Nat → Nat → Nat
  σ_inj : ∀ h, ∀ p < 9, ∀ q < 9, σ h p = σ h q → p = q
  x_lt : ∀ (h : Fin 27) e, x h e < 9
  inj : ∀ (h : Fin 27) (e e' : Candidate), Pattern.InHouse h e.cell → Pattern.InHouse h e'.cell →
    x h e = x h e' → y h e = y h e' → e = e'

/-- Naked subsets: position and digit. -/
def nakedCoding (ht : Solved t) : Coding t where
  x h e := Pattern.posIn h e.cell
  y _ e := e.digit.val
  σ := digAt t
  σ_inj := digAt_inj ht
  x_lt h e := posIn_lt h e.cell
  inj := by
    rintro h ⟨c, d⟩ ⟨c', d'⟩ h1 h2 h3 h4
    have := posIn_inj h _ _ h1 h2 h3
    have h4 := Fin.ext h4
    dsimp only at this h4
    rw [this, h4]

/-- Hidden subsets: digit, and the digit of the cell in the solution. -/
def hiddenCoding (ht : Solved t) : Coding t where
  x _ e := e.digit.val
  y _ e := (dig t e.cell).val
  σ _ p := p
  σ_inj := fun _ _ _ _ _ h => h
  x_lt _ e := e.digit.isLt
  inj := by
    rintro h ⟨c, d⟩ ⟨c', d'⟩ h1 h2 h3 h4
    have h3 := Fin.ext h3
    have := dig_unique ht (h1.same h2) (Fin.ext h4)
    dsimp only at this h3
    rw [this, h3]

/-- A subset with the house `h` and the shape `S` is present. -/
structure Here (C : Coding t) (P : Fin 81 → Digit → Prop) (n : Nat) (h : Fin 27) (S : Finset Nat) : Prop where
  mem : S ∈ Finset.powersetCard n (Finset.range 9)
  closed : ∀ c d, Pattern.InHouse h c → P c d → C.x h ⟨c, d⟩ ∈ S → C.y h ⟨c, d⟩ ∈ S.image (C.σ h)

theorem naked_here (ht : Solved t) (hP : Live t F P) {n : Nat} {h : Fin 27} {ps : PosSet} {ds : DigitSet}
    {l : List Candidate} (hs : Pattern.NakedSubset P n h ps ds l) : Here (nakedCoding ht) P n h (elems ps) ∧
      ∀ e ∈ l, Pattern.InHouse h e.cell ∧ P e.cell e.digit ∧ (nakedCoding ht).x h e ∉ elems ps ∧
        (nakedCoding ht).y h e ∈ (elems ps).image ((nakedCoding ht).σ h) := by
  obtain ⟨a1, a2, a3, -, a5, -, a6⟩ := hs
  have cell : ∀ p ∈ elems ps, Pattern.InHouse h (cellIn h p) ∧ Pattern.posIn h (cellIn h p) = p :=
    fun p hp => cellIn_spec h (a3 p hp)
  have hd : ∀ p ∈ elems ps, digAt t h p = (dig t (cellIn h p)).val := fun p hp => by
    have := digAt_posIn (t := t) (cell p hp).1
    rwa [(cell p hp).2] at this
  have himg : (elems ps).image (digAt t h) = elems ds := by
    refine matched (a1.trans a2.symm) _ (fun p hp => ?_) (fun p hp q hq => digAt_inj ht h p (a3 p hp) q (a3 q hq))
    obtain ⟨c1, c2⟩ := cell p hp
    obtain ⟨⟨d, hd'⟩, h2⟩ := a5 _ c1 (by rw [c2]; exact hp)
    rw [hd p hp]
    exact h2 _ (hP.own _ (hP.empty _ _ hd'))
  refine ⟨⟨?_, ?_⟩, ?_⟩
  · rw [Finset.mem_powersetCard]
    exact ⟨fun p hp => Finset.mem_range.mpr (a3 p hp), a1⟩
  · intro c d hc hcd hx
    show d.val ∈ (elems ps).image (digAt t h)
    rw [himg]
    exact (a5 c hc hx).2 d hcd
  · rintro ⟨c, d⟩ he
    obtain ⟨⟨h1, h2, h3⟩, h4⟩ := (a6 c d).mp he
    refine ⟨h1, h4, h2, ?_⟩
    show d.val ∈ (elems ps).image (digAt t h)
    rw [himg]
    exact h3

theorem hidden_here (ht : Solved t) (hP : Live t F P) {n : Nat} {h : Fin 27} {ps : PosSet} {ds : DigitSet}
    {l : List Candidate} (hs : Pattern.HiddenSubset P n h ps ds l) : Here (hiddenCoding ht) P n h (elems ds) ∧
      ∀ e ∈ l, Pattern.InHouse h e.cell ∧ P e.cell e.digit ∧ (hiddenCoding ht).x h e ∉ elems ds ∧
        (hiddenCoding ht).y h e ∈ (elems ds).image ((hiddenCoding ht).σ h) := by
  obtain ⟨a1, a2, a3, a4, a5, -, a6⟩ := hs
  choose place place_in place_dig using place_exists ht h
  let pl : Nat → Fin 81 := fun d => if hd : d < 9 then place ⟨d, hd⟩ else 0
  have pl_eq : ∀ d : Digit, pl d.val = place d := fun d => dif_pos d.isLt
  have dig_of : ∀ d ∈ elems ds, ∃ e : Digit, e.val = d := fun d hd => ⟨⟨d, a4 d hd⟩, rfl⟩
  have unf : ∀ d : Digit, d.val ∈ elems ds → P (place d) d := by
    intro d hd
    obtain ⟨⟨c, hc, hcd⟩, -⟩ := a5 d hd
    exact hP.open_place ((place_in d).same hc) hcd (place_dig d)
  have himg : (elems ds).image (fun d => Pattern.posIn h (pl d)) = elems ps := by
    refine matched (a2.trans a1.symm) _ (fun d hd => ?_) (fun d hd d' hd' heq => ?_)
    · obtain ⟨e, rfl⟩ := dig_of d hd
      show Pattern.posIn h (pl e.val) ∈ _
      rw [pl_eq]
      exact (a5 e hd).2 _ (place_in e) (unf e hd)
    · obtain ⟨e, rfl⟩ := dig_of d hd
      obtain ⟨e', rfl⟩ := dig_of d' hd'
      have heq : Pattern.posIn h (pl e.val) = Pattern.posIn h (pl e'.val) := heq
      rw [pl_eq, pl_eq] at heq
      have := posIn_inj h _ _ (place_in e) (place_in e') heq
      rw [← place_dig e, ← place_dig e', this]
  -- the cells at these positions have these digits
  have own : ∀ c, Pattern.InHouse h c → Pattern.posIn h c ∈ elems ps → (dig t c).val ∈ elems ds := by
    intro c hc hp
    rw [← himg] at hp
    obtain ⟨d, hd, hdp⟩ := Finset.mem_image.mp hp
    obtain ⟨e, rfl⟩ := dig_of d hd
    have hdp : Pattern.posIn h (pl e.val) = Pattern.posIn h c := hdp
    rw [pl_eq] at hdp
    have := posIn_inj h _ _ (place_in e) hc hdp
    rw [← this, place_dig]
    exact hd
  have hid : (elems ds).image ((hiddenCoding ht).σ h) = elems ds := Finset.image_id
  refine ⟨⟨?_, ?_⟩, ?_⟩
  · rw [Finset.mem_powersetCard]
    exact ⟨fun p hp => Finset.mem_range.mpr (a4 p hp), a2⟩
  · intro c d hc hcd hx
    rw [hid]
    exact own c hc ((a5 d hx).2 c hc hcd)
  · rintro ⟨c, d⟩ he
    obtain ⟨⟨h1, h2, h3⟩, h4⟩ := (a6 c d).mp he
    refine ⟨h1, h4, h3, ?_⟩
    rw [hid]
    exact own c h1 h2

/-- The pairs found so far, in a state with the candidates `P`. -/
structure Tally (C : Coding t) (n : Nat) (P : Fin 81 → Digit → Prop) (T : Finset (Key × Candidate)) : Prop where
  shape : ∀ x ∈ T, ∃ h : Fin 27, x.1.1 = h.val ∧ x.1.2.1 = 0 ∧ x.1.2.2 ∈ Finset.powersetCard n (Finset.range 9) ∧
    Pattern.InHouse h x.2.cell ∧ C.x h x.2 ∉ x.1.2.2 ∧ C.y h x.2 ∈ x.1.2.2.image (C.σ h)
  first : ∀ h : Fin 27, (∀ x ∈ T, x.1.1 ≠ h.val) ∨ ∃ S, Here C P n h S ∧
    ∀ x ∈ T, x.1.1 = h.val → C.x h x.2 ∈ S → C.y h x.2 ∈ S.image (C.σ h)

theorem Tally.empty (C : Coding t) (n : Nat) (P : Fin 81 → Digit → Prop) : Tally C n P ∅ :=
  ⟨by simp, fun h => Or.inl (by simp)⟩

theorem Tally.mono {C : Coding t} {n : Nat} {P Q : Fin 81 → Digit → Prop} {T : Finset (Key × Candidate)} (h : Tally C n P T)
    (hq : ∀ c d, Q c d → P c d) : Tally C n Q T := by
  refine ⟨h.shape, fun x => (h.first x).imp id ?_⟩
  rintro ⟨S, h1, h2⟩
  exact ⟨S, ⟨h1.mem, fun c d hc hcd => h1.closed c d hc (hq c d hcd)⟩, h2⟩

theorem Tally.union {C : Coding t} {n : Nat} {T N : Finset (Key × Candidate)} (h : Tally C n P T)
    (hN : ∀ x ∈ N, ∃ h : Fin 27, x.1.1 = h.val ∧ x.1.2.1 = 0 ∧ Here C P n h x.1.2.2 ∧
      Pattern.InHouse h x.2.cell ∧ P x.2.cell x.2.digit ∧ C.x h x.2 ∉ x.1.2.2 ∧ C.y h x.2 ∈ x.1.2.2.image (C.σ h)) :
    Tally C n P (T ∪ N) := by
  classical
  refine ⟨?_, ?_⟩
  · intro x hx
    rcases Finset.mem_union.mp hx with hx | hx
    · exact h.shape x hx
    · obtain ⟨k, a1, a2, a3, a4, -, a5, a6⟩ := hN x hx
      exact ⟨k, a1, a2, a3.mem, a4, a5, a6⟩
  · intro k
    -- the new pairs of a house respect what is present
    have new : ∀ S, Here C P n k S → ∀ x ∈ N, x.1.1 = k.val → C.x k x.2 ∈ S → C.y k x.2 ∈ S.image (C.σ k) := by
      intro S hS x hx e hxS
      obtain ⟨k', a1, -, -, a4, a7, -, -⟩ := hN x hx
      have : k' = k := Fin.ext (a1.symm.trans e)
      subst this
      exact hS.closed _ _ a4 a7 hxS
    rcases h.first k with h1 | ⟨S, h1, h2⟩
    · by_cases he : ∃ x ∈ N, x.1.1 = k.val
      · obtain ⟨x, hx, e⟩ := he
        obtain ⟨k', a1, -, a3, -⟩ := hN x hx
        have : k' = k := Fin.ext (a1.symm.trans e)
        subst this
        refine Or.inr ⟨_, a3, fun y hy e' => ?_⟩
        rcases Finset.mem_union.mp hy with hy | hy
        · exact absurd e' (h1 y hy)
        · exact new _ a3 y hy e'
      · refine Or.inl fun x hx e => ?_
        rcases Finset.mem_union.mp hx with hx | hx
        · exact h1 x hx e
        · exact he ⟨x, hx, e⟩
    · refine Or.inr ⟨S, h1, fun y hy e' => ?_⟩
      rcases Finset.mem_union.mp hy with hy | hy
      · exact h2 y hy e'
      · exact new _ h1 y hy e'

theorem Tally.card {C : Coding t} {n : Nat} (h0 : 1 ≤ n) (h9 : n ≤ 8) {T : Finset (Key × Candidate)} (h : Tally C n P T) :
    T.card ≤ 27 * (Nat.choose 9 n * (n * (9 - n) - 1) + 1) := by
  classical
  have hw : 1 ≤ n * (9 - n) := Nat.mul_pos h0 (by omega)
  -- the set that was found first in each house
  have hS : ∀ k : Nat, ∃ S : Finset Nat, ∀ x ∈ T, x.1.1 = k → S ∈ Finset.powersetCard n (Finset.range 9) ∧
      (C.x k x.2 ∈ S → C.y k x.2 ∈ S.image (C.σ k)) := by
    intro k
    by_cases hk : k < 27
    · rcases h.first ⟨k, hk⟩ with h1 | ⟨S, h1, h2⟩
      · exact ⟨∅, fun x hx e => absurd e (h1 x hx)⟩
      · exact ⟨S, fun x hx e => ⟨h1.mem, h2 x hx e⟩⟩
    · refine ⟨∅, fun x hx e => ?_⟩
      obtain ⟨k', a1, -⟩ := h.shape x hx
      omega
  choose S0 hS0 using hS
  -- each shape has a bounded number of candidates
  have fiber : ∀ k ∈ (Finset.range 27) ×ˢ ({0} : Finset Nat) ×ˢ Finset.powersetCard n (Finset.range 9),
      (T.filter (fun x => x.1 = k)).card ≤ (n * (9 - n) - 1) + if k.2.2 = S0 k.1 then 1 else 0 := by
    rintro ⟨k, z, S⟩ hk
    rw [Finset.mem_product, Finset.mem_product] at hk
    obtain ⟨hk1, -, hk3⟩ := hk
    dsimp only at hk1 hk3 ⊢
    rw [Finset.mem_range] at hk1
    obtain ⟨hsub, hcard⟩ := Finset.mem_powersetCard.mp hk3
    have lt : ∀ p ∈ S, p < 9 := fun p hp => Finset.mem_range.mp (hsub hp)
    let R : Finset (Nat × Nat) := (Finset.range 9 \ S) ×ˢ S.image (C.σ k)
    have hR : R.card = n * (9 - n) := by
      rw [Finset.card_product, Finset.card_sdiff_of_subset hsub, Finset.card_range, hcard,
        Finset.card_image_of_injOn (fun a ha b hb => C.σ_inj k a (lt a ha) b (lt b hb)), hcard, Nat.mul_comm]
    have inR : ∀ x ∈ T.filter (fun x => x.1 = (k, z, S)), (C.x k x.2, C.y k x.2) ∈ R := by
      intro x hx
      obtain ⟨hx, e⟩ := Finset.mem_filter.mp hx
      obtain ⟨k', a1, -, -, -, a5, a6⟩ := h.shape x hx
      rw [e] at a1 a5 a6
      dsimp only at a1 a5 a6
      subst a1
      rw [Finset.mem_product]
      exact ⟨Finset.mem_sdiff.mpr ⟨Finset.mem_range.mpr (C.x_lt k' _), a5⟩, a6⟩
    have inj : Set.InjOn (fun x : Key × Candidate => (C.x k x.2, C.y k x.2)) (T.filter (fun x => x.1 = (k, z, S)) : Finset _) := by
      intro x hx y hy e
      obtain ⟨hx, e1⟩ := Finset.mem_filter.mp (Finset.mem_coe.mp hx)
      obtain ⟨hy, e2⟩ := Finset.mem_filter.mp (Finset.mem_coe.mp hy)
      obtain ⟨k1, a1, -, -, a4, -⟩ := h.shape x hx
      obtain ⟨k2, b1, -, -, b4, -⟩ := h.shape y hy
      rw [e1] at a1
      rw [e2] at b1
      dsimp only at a1 b1
      have : k1 = k2 := Fin.ext (a1.symm.trans b1)
      subst this
      subst a1
      exact Prod.ext (e1.trans e2.symm) (C.inj k1 _ _ a4 b4 (congrArg Prod.fst e) (congrArg Prod.snd e))
    by_cases hSS : S = S0 k
    · rw [if_pos hSS]
      have := Finset.card_le_card_of_injOn _ inR inj
      omega
    · rw [if_neg hSS]
      by_cases hne : (T.filter (fun x => x.1 = (k, z, S))) = ∅
      · rw [hne]; simp
      · obtain ⟨x0, hx0⟩ := Finset.nonempty_iff_ne_empty.mpr hne
        obtain ⟨hx0, e0⟩ := Finset.mem_filter.mp hx0
        have hm := (hS0 k x0 hx0 (by rw [e0])).1
        obtain ⟨hsub0, hcard0⟩ := Finset.mem_powersetCard.mp hm
        -- one pair is impossible
        have : ∃ p ∈ S0 k, p ∉ S := by
          by_contra hc
          push Not at hc
          exact hSS (Finset.eq_of_subset_of_card_le hc (by rw [hcard, hcard0])).symm
        obtain ⟨p, hp1, hp2⟩ := this
        have : ∃ q ∈ S, q ∉ S0 k := by
          by_contra hc
          push Not at hc
          exact hSS (Finset.eq_of_subset_of_card_le hc (by rw [hcard, hcard0]))
        obtain ⟨q, hq1, hq2⟩ := this
        have hbad : (p, C.σ k q) ∈ R := by
          rw [Finset.mem_product]
          exact ⟨Finset.mem_sdiff.mpr ⟨hsub0 hp1, hp2⟩, Finset.mem_image_of_mem _ hq1⟩
        have inR' : ∀ x ∈ T.filter (fun x => x.1 = (k, z, S)), (C.x k x.2, C.y k x.2) ∈ R.erase (p, C.σ k q) := by
          intro x hx
          refine Finset.mem_erase.mpr ⟨fun e => ?_, inR x hx⟩
          obtain ⟨hx, e1⟩ := Finset.mem_filter.mp hx
          have e2 := congrArg Prod.fst e
          have e3 := congrArg Prod.snd e
          dsimp only at e2 e3
          have := (hS0 k x hx (by rw [e1])).2 (by rw [e2]; exact hp1)
          rw [e3] at this
          obtain ⟨q', hq', e4⟩ := Finset.mem_image.mp this
          have := C.σ_inj k q' (Finset.mem_range.mp (hsub0 hq')) q (lt q hq1) e4
          subst this
          exact hq2 hq'
        have := Finset.card_le_card_of_injOn _ inR' inj
        rw [Finset.card_erase_of_mem hbad, hR] at this
        omega
  have hmap : ∀ x ∈ T, x.1 ∈ (Finset.range 27) ×ˢ ({0} : Finset Nat) ×ˢ Finset.powersetCard n (Finset.range 9) := by
    intro x hx
    obtain ⟨k, a1, a2, a3, -⟩ := h.shape x hx
    rw [Finset.mem_product, Finset.mem_product]
    exact ⟨Finset.mem_range.mpr (by omega), Finset.mem_singleton.mpr a2, a3⟩
  rw [Finset.card_eq_sum_card_fiberwise hmap]
  refine (Finset.sum_le_sum fiber).trans ?_
  rw [Finset.sum_product]
  have hrow : ∀ k ∈ Finset.range 27, (∑ y ∈ ({0} : Finset Nat) ×ˢ Finset.powersetCard n (Finset.range 9),
      ((n * (9 - n) - 1) + if y.2 = S0 k then 1 else 0)) ≤ Nat.choose 9 n * (n * (9 - n) - 1) + 1 := by
    intro k _
    rw [Finset.sum_product, Finset.sum_singleton, Finset.sum_add_distrib, Finset.sum_const, Finset.card_powersetCard,
      Finset.card_range, smul_eq_mul, Finset.sum_ite_eq']
    split <;> omega
  refine (Finset.sum_le_sum hrow).trans ?_
  rw [Finset.sum_const, Finset.card_range, smul_eq_mul]

end Verif.Strat
