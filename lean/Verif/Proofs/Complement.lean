import Verif.Proofs.Confluence

/-!
# Complementary patterns: a naked subset leaves a hidden one for the other cells, a fish in rows one in columns
-/
namespace Verif.Strat

open Verif Verif.Bitset

variable {t : Grid} {F : Fin 81 → Prop} {P : Fin 81 → Digit → Prop}

theorem inHouse_lt {h : Nat} {c : Fin 81} (hc : Pattern.InHouse h c) : h < 27 := by
  unfold Pattern.InHouse at hc
  have : blockOf c < 9 := by
    unfold blockOf rowOf colOf
    omega
  split at hc
  · omega
  · split at hc <;> omega

/-- The open positions of a house that are not in `A`. -/
noncomputable def others (F : Fin 81 → Prop) (h : Fin 27) (A : Finset Nat) : Finset Nat := by
  classical exact (Finset.range 9).filter (fun p => ¬ F (cellIn h p) ∧ p ∉ A)

theorem mem_others {h : Fin 27} {A : Finset Nat} {p : Nat} : p ∈ others F h A ↔ p < 9 ∧ ¬ F (cellIn h p) ∧ p ∉ A := by
  unfold others
  simp

/-- The digits at some positions. -/
def digitsAt (t : Grid) (h : Fin 27) (A : Finset Nat) : Finset Nat := A.image (fun p => (dig t (cellIn h p)).val)

theorem mem_digitsAt {h : Fin 27} {A : Finset Nat} {d : Digit} :
    d.val ∈ digitsAt t h A ↔ ∃ p ∈ A, dig t (cellIn h p) = d := by
  unfold digitsAt
  rw [Finset.mem_image]
  exact ⟨fun ⟨p, h1, h2⟩ => ⟨p, h1, Fin.ext h2⟩, fun ⟨p, h1, h2⟩ => ⟨p, h1, by rw [h2]⟩⟩

theorem pos_unique (ht : Solved t) (h : Fin 27) {p q : Nat} (hp : p < 9) (hq : q < 9)
    (he : dig t (cellIn h p) = dig t (cellIn h q)) : p = q := by
  have h1 := cellIn_spec h hp
  have h2 := cellIn_spec h hq
  have := dig_unique ht (h1.1.same h2.1) he
  rw [← h1.2, ← h2.2, this]

theorem card_digitsAt (ht : Solved t) (h : Fin 27) {A : Finset Nat} (hA : ∀ p ∈ A, p < 9) :
    (digitsAt t h A).card = A.card :=
  Finset.card_image_of_injOn fun p hp q hq he => pos_unique ht h (hA p hp) (hA q hq) (Fin.ext he)

/-- The place of a candidate's digit in a house is an open position. -/
theorem open_pos (ht : Solved t) (hP : Live t F P) {h : Fin 27} {c : Fin 81} {d : Digit} (hc : Pattern.InHouse h c)
    (hcd : P c d) : ∃ q < 9, ¬ F (cellIn h q) ∧ dig t (cellIn h q) = d := by
  obtain ⟨p, h1, h2⟩ := place_exists ht h d
  refine ⟨Pattern.posIn h p, posIn_lt h p, ?_, ?_⟩ <;> rw [cellIn_posIn h1]
  · exact hP.empty _ _ (hP.open_place (h1.same hc) hcd h2)
  · exact h2

theorem card_others {h : Fin 27} {A : Finset Nat} (hA : ∀ p ∈ A, p < 9) : A.card + (others F h A).card ≤ 9 := by
  classical
  rw [← Finset.card_union_of_disjoint]
  · refine (Finset.card_le_card (t := Finset.range 9) fun p hp => ?_).trans (by simp)
    rcases Finset.mem_union.mp hp with h1 | h1
    · exact Finset.mem_range.mpr (hA p h1)
    · exact Finset.mem_range.mpr (mem_others.mp h1).1
  · rw [Finset.disjoint_left]
    exact fun p h1 h2 => (mem_others.mp h2).2.2 h1

/-- In the candidates of a house, being one of the digits at `A` and not one of those at the other positions are the same. -/
theorem digit_split (ht : Solved t) (hP : Live t F P) {h : Fin 27} {A : Finset Nat} (hA : ∀ p ∈ A, p < 9) {c : Fin 81}
    {d : Digit} (hc : Pattern.InHouse h c) (hcd : P c d) :
    d.val ∈ digitsAt t h A ↔ d.val ∉ digitsAt t h (others F h A) := by
  rw [mem_digitsAt, mem_digitsAt]
  constructor
  · rintro ⟨p, h1, h2⟩ ⟨q, h3, h4⟩
    obtain ⟨h5, -, h6⟩ := mem_others.mp h3
    exact h6 (pos_unique ht h (hA p h1) h5 (h2.trans h4.symm) ▸ h1)
  · intro hno
    obtain ⟨q, h1, h2, h3⟩ := open_pos ht hP hc hcd
    by_cases hq : q ∈ A
    · exact ⟨q, hq, h3⟩
    · exact absurd ⟨q, mem_others.mpr ⟨h1, h2, hq⟩, h3⟩ hno

theorem pos_split (hP : Live t F P) {h : Fin 27} {A : Finset Nat} {c : Fin 81} {d : Digit} (hc : Pattern.InHouse h c)
    (hcd : P c d) : Pattern.posIn h c ∈ others F h A ↔ Pattern.posIn h c ∉ A := by
  rw [mem_others]
  refine ⟨fun h1 => h1.2.2, fun h1 => ⟨posIn_lt h c, ?_, h1⟩⟩
  rw [cellIn_posIn hc]
  exact hP.empty _ _ hcd

theorem bits16 {A : Finset Nat} (hA : ∀ p ∈ A, p < 9) : ∃ b : BitVec 16, elems b = A :=
  bits_exists 16 A fun i hi => by have := hA i hi; omega

theorem digitsAt_lt {h : Fin 27} {A : Finset Nat} : ∀ d ∈ digitsAt t h A, d < 9 := by
  intro d hd
  obtain ⟨p, -, rfl⟩ := Finset.mem_image.mp hd
  exact (dig t (cellIn h p)).isLt

theorem others_lt {h : Fin 27} {A : Finset Nat} : ∀ p ∈ others F h A, p < 9 := fun _ hp => (mem_others.mp hp).1

/-- A naked subset of `n` cells leaves a hidden subset for the other open cells of the house. -/
theorem naked_complement (ht : Solved t) (hP : Live t F P) {n h : Nat} {ps : PosSet} {ds : DigitSet} {l : List Candidate}
    (hs : Pattern.NakedSubset P n h ps ds l) :
    ∃ m ps' ds', n + m ≤ 9 ∧ 1 ≤ m ∧ Pattern.HiddenSubset P m h ps' ds' l := by
  obtain ⟨a1, a2, a3, a4, a5, hne, a6⟩ := hs
  obtain ⟨⟨c0, d0⟩, he⟩ := List.exists_mem_of_ne_nil l hne
  obtain ⟨⟨hin, hout, hd0⟩, hcd0⟩ := (a6 c0 d0).mp he
  have hlt : h < 27 := inHouse_lt hin
  obtain ⟨h, rfl⟩ : ∃ h' : Fin 27, h = h'.val := ⟨⟨h, hlt⟩, rfl⟩
  have opn : ∀ p ∈ elems ps, P (cellIn h p) (dig t (cellIn h p)) := by
    intro p hp
    obtain ⟨c1, c2⟩ := cellIn_spec h (a3 p hp)
    obtain ⟨⟨d, hd⟩, -⟩ := a5 _ c1 (by rw [c2]; exact hp)
    exact hP.own _ (hP.empty _ _ hd)
  have img : digitsAt t h (elems ps) = elems ds := by
    refine Finset.eq_of_subset_of_card_le (fun d hd => ?_) ?_
    · obtain ⟨p, hp, rfl⟩ := Finset.mem_image.mp hd
      obtain ⟨c1, c2⟩ := cellIn_spec h (a3 p hp)
      exact (a5 _ c1 (by rw [c2]; exact hp)).2 _ (opn p hp)
    · rw [card_digitsAt ht h a3, a1, a2]
  obtain ⟨ps', e1⟩ := bits16 (others_lt (F := F) (h := h) (A := elems ps))
  obtain ⟨ds', e2⟩ := bits16 (digitsAt_lt (t := t) (h := h) (A := others F h (elems ps)))
  refine ⟨(others F h (elems ps)).card, ps', ds', ?_, ?_, ?_, ?_, ?_, ?_, ?_, hne, ?_⟩
  · rw [← a1]
    exact card_others a3
  · exact Finset.card_pos.mpr ⟨_, (pos_split hP hin hcd0).mpr hout⟩
  · rw [e1]
  · rw [e2, card_digitsAt ht h others_lt]
  · intro p hp
    exact others_lt p (e1 ▸ (show p ∈ elems ps' from hp))
  · intro d hd
    exact digitsAt_lt d (e2 ▸ (show d ∈ elems ds' from hd))
  · intro d hd
    have hd' : d.val ∈ digitsAt t h (others F h (elems ps)) := e2 ▸ (show d.val ∈ elems ds' from hd)
    refine ⟨?_, fun c hc hcd => ?_⟩
    · obtain ⟨p, h1, h2⟩ := mem_digitsAt.mp hd'
      obtain ⟨h3, h4, -⟩ := mem_others.mp h1
      refine ⟨_, (cellIn_spec h h3).1, ?_⟩
      have := hP.own _ h4
      rwa [h2] at this
    · show _ ∈ elems ps'
      rw [e1, pos_split hP hc hcd]
      intro hp
      have h1 := (a5 c hc hp).2 d hcd
      have h1 : d.val ∈ digitsAt t h (elems ps) := img ▸ h1
      exact (digit_split ht hP a3 hc hcd).mp h1 hd'
  · intro c d
    rw [a6]
    refine and_congr_left fun hcd => and_congr_right fun hc => ?_
    show _ ∉ elems ps ∧ _ ∈ elems ds ↔ _ ∈ elems ps' ∧ _ ∉ elems ds'
    rw [e1, e2, ← img, pos_split hP hc hcd, digit_split ht hP a3 hc hcd]

/-- A hidden subset of `n` digits leaves a naked subset for the other open cells of the house. -/
theorem hidden_complement (ht : Solved t) (hP : Live t F P) {n h : Nat} {ps : PosSet} {ds : DigitSet} {l : List Candidate}
    (hs : Pattern.HiddenSubset P n h ps ds l) :
    ∃ m ps' ds', n + m ≤ 9 ∧ 1 ≤ m ∧ Pattern.NakedSubset P m h ps' ds' l := by
  obtain ⟨a1, a2, a3, a4, a5, hne, a6⟩ := hs
  obtain ⟨⟨c0, d0⟩, he⟩ := List.exists_mem_of_ne_nil l hne
  obtain ⟨⟨hin, hinp, hd0⟩, hcd0⟩ := (a6 c0 d0).mp he
  have hlt : h < 27 := inHouse_lt hin
  obtain ⟨h, rfl⟩ : ∃ h' : Fin 27, h = h'.val := ⟨⟨h, hlt⟩, rfl⟩
  -- the places of the digits are among the positions
  have sub : elems ds ⊆ digitsAt t h (elems ps) := by
    intro d hd
    obtain ⟨d, rfl⟩ : ∃ d' : Digit, d = d'.val := ⟨⟨d, a4 d hd⟩, rfl⟩
    obtain ⟨⟨c, hc, hcd⟩, hall⟩ := a5 d hd
    obtain ⟨q, h1, h2, h3⟩ := open_pos ht hP hc hcd
    obtain ⟨s1, s2⟩ := cellIn_spec h h1
    have := hall _ s1 (by have := hP.own _ h2; rwa [h3] at this)
    rw [s2] at this
    exact mem_digitsAt.mpr ⟨q, this, h3⟩
  have img : digitsAt t h (elems ps) = elems ds :=
    (Finset.eq_of_subset_of_card_le sub (by rw [card_digitsAt ht h a3, a1, a2])).symm
  obtain ⟨ps', e1⟩ := bits16 (others_lt (F := F) (h := h) (A := elems ps))
  obtain ⟨ds', e2⟩ := bits16 (digitsAt_lt (t := t) (h := h) (A := others F h (elems ps)))
  refine ⟨(others F h (elems ps)).card, ps', ds', ?_, ?_, ?_, ?_, ?_, ?_, ?_, hne, ?_⟩
  · rw [← a1]
    exact card_others a3
  · have h1 : d0.val ∉ digitsAt t h (elems ps) := img ▸ hd0
    have h2 := not_not.mp (mt (digit_split ht hP a3 hin hcd0).mpr h1)
    obtain ⟨q, hq, -⟩ := mem_digitsAt.mp h2
    exact Finset.card_pos.mpr ⟨q, hq⟩
  · rw [e1]
  · rw [e2, card_digitsAt ht h others_lt]
  · intro p hp
    exact others_lt p (e1 ▸ (show p ∈ elems ps' from hp))
  · intro d hd
    exact digitsAt_lt d (e2 ▸ (show d ∈ elems ds' from hd))
  · intro c hc hp
    have hp' : Pattern.posIn h c ∈ others F h (elems ps) := e1 ▸ (show _ ∈ elems ps' from hp)
    obtain ⟨-, h2, h3⟩ := mem_others.mp hp'
    rw [cellIn_posIn hc] at h2
    refine ⟨⟨_, hP.own c h2⟩, fun d hcd => ?_⟩
    show _ ∈ elems ds'
    rw [e2]
    by_contra hno
    have h4 := (digit_split ht hP a3 hc hcd).mpr hno
    rw [img] at h4
    exact h3 ((a5 d h4).2 c hc hcd)
  · intro c d
    rw [a6]
    refine and_congr_left fun hcd => and_congr_right fun hc => ?_
    show _ ∈ elems ps ∧ _ ∉ elems ds ↔ _ ∉ elems ps' ∧ _ ∈ elems ds'
    rw [e1, e2, ← img, pos_split hP hc hcd, digit_split ht hP a3 hc hcd, not_not, not_not]

/-- Rows and columns: the lines `dir + i` are `a c = i`, the crossing lines are `b c = j`. -/
theorem axes {dir : Nat} (hdir : dir = 0 ∨ dir = 9) : ∃ (a b : Fin 81 → Nat), (∀ c, a c < 9) ∧ (∀ c, b c < 9) ∧
    (∀ i < 9, ∀ c, Pattern.InHouse (dir + i) c ↔ a c = i) ∧ (∀ i < 9, ∀ c, Pattern.posIn (dir + i) c = b c) ∧
    (∀ i < 9, ∀ c, Pattern.InHouse (9 - dir + i) c ↔ b c = i) ∧ (∀ i < 9, ∀ c, Pattern.posIn (9 - dir + i) c = a c) ∧
    (∀ c c', a c = a c' → SameHouse c c') ∧ (∀ c c', b c = b c' → SameHouse c c') := by
  have hr : ∀ c : Fin 81, rowOf c < 9 := fun c => by unfold rowOf; omega
  have hcl : ∀ c : Fin 81, colOf c < 9 := fun c => by unfold colOf; omega
  have r1 : ∀ i < 9, ∀ c, Pattern.InHouse i c ↔ rowOf c = i := fun i hi c => by
    unfold Pattern.InHouse; rw [if_pos hi]
  have r2 : ∀ i < 9, ∀ c, Pattern.posIn i c = colOf c := fun i hi c => by
    unfold Pattern.posIn; rw [if_pos hi]
  have c1 : ∀ i < 9, ∀ c, Pattern.InHouse (9 + i) c ↔ colOf c = i := fun i hi c => by
    unfold Pattern.InHouse; rw [if_neg (by omega), if_pos (by omega), show 9 + i - 9 = i by omega]
  have c2 : ∀ i < 9, ∀ c, Pattern.posIn (9 + i) c = rowOf c := fun i hi c => by
    unfold Pattern.posIn; rw [if_neg (by omega), if_pos (by omega)]
  rcases hdir with rfl | rfl
  · exact ⟨fun c => rowOf c, fun c => colOf c, hr, hcl, fun i hi c => by rw [Nat.zero_add]; exact r1 i hi c,
      fun i hi c => by rw [Nat.zero_add]; exact r2 i hi c, c1, c2, fun c c' h => Or.inl h, fun c c' h => Or.inr (Or.inl h)⟩
  · exact ⟨fun c => colOf c, fun c => rowOf c, hcl, hr, c1, c2, fun i hi c => by rw [Nat.sub_self, Nat.zero_add]; exact r1 i hi c,
      fun i hi c => by rw [Nat.sub_self, Nat.zero_add]; exact r2 i hi c, fun c c' h => Or.inr (Or.inl h),
      fun c c' h => Or.inl h⟩

/-- A fish of `n` lines leaves a fish for the other open lines in the crossing direction. -/
theorem fish_complement (ht : Solved t) (hP : Live t F P) {n : Nat} {digit : Digit} {ls : LineSet} {ps : PosSet}
    {l : List Candidate} (hs : Pattern.BasicFish P n digit ls ps l) :
    ∃ m ls' ps', n + m ≤ 9 ∧ 1 ≤ m ∧ Pattern.BasicFish P m digit ls' ps' l := by
  classical
  obtain ⟨a1, a2, a3, dir, hdir, a4, a5, hne, a6⟩ := hs
  obtain ⟨⟨c0, d0⟩, he⟩ := List.exists_mem_of_ne_nil l hne
  obtain ⟨⟨hd0, l0, g1, g2, g3, g4, g5⟩, hcd0⟩ := (a6 c0 d0).mp he
  have hd0 : d0 = digit := hd0
  subst hd0
  obtain ⟨a, b, al, bl, x1, x2, x3, x4, x5, x6⟩ := axes hdir
  have d9 : dir ≤ 9 := by omega
  choose place place_in place_dig using fun h => place_exists ht h d0
  -- the place in line `i`
  let pl : Nat → Fin 81 := fun i => if hl : dir + i < 27 then place ⟨dir + i, hl⟩ else 0
  have pl_a : ∀ i < 9, a (pl i) = i := by
    intro i hi
    have e : pl i = place ⟨dir + i, by omega⟩ := dif_pos (by omega)
    rw [e]
    exact (x1 i hi _).mp (place_in ⟨dir + i, by omega⟩)
  have pl_d : ∀ i < 9, dig t (pl i) = d0 := by
    intro i hi
    have e : pl i = place ⟨dir + i, by omega⟩ := dif_pos (by omega)
    rw [e]
    exact place_dig _
  have pl_eq : ∀ q, dig t q = d0 → pl (a q) = q := fun q hq =>
    dig_unique ht (x5 _ _ (pl_a _ (al q))) ((pl_d _ (al q)).trans hq.symm)
  let f : Nat → Nat := fun i => b (pl i)
  have finj : ∀ i < 9, ∀ j < 9, f i = f j → i = j := by
    intro i hi j hj he
    have := dig_unique ht (x6 _ _ he) ((pl_d i hi).trans (pl_d j hj).symm)
    rw [← pl_a i hi, ← pl_a j hj, this]
  -- open lines
  have opn : ∀ c, P c d0 → ¬ F (pl (a c)) := fun c hc =>
    hP.empty _ _ (hP.open_place (x5 _ _ (pl_a _ (al c))) hc (pl_d _ (al c)))
  let A : Finset Nat := (Finset.range 9).filter (fun i => dir + i ∈ elems ls)
  have mA : ∀ i, i ∈ A ↔ i < 9 ∧ dir + i ∈ elems ls := fun i => by simp [A]
  have cardA : A.card = n := by
    rw [← a1]
    refine Finset.card_bij (fun i _ => dir + i) (fun i hi => ((mA i).mp hi).2) (fun i _ j _ h => by omega) ?_
    intro k hk
    have := a4 k hk
    exact ⟨k - dir, (mA _).mpr ⟨by omega, by rw [show dir + (k - dir) = k by omega]; exact hk⟩, by omega⟩
  have openA : ∀ i ∈ A, ¬ F (pl i) := by
    intro i hi
    obtain ⟨h1, h2⟩ := (mA i).mp hi
    obtain ⟨⟨c, hc, hcd⟩, -⟩ := a5 _ h2
    have := opn c hcd
    rwa [(x1 i h1 c).mp hc] at this
  have own : ∀ i < 9, ¬ F (pl i) → P (pl i) d0 := by
    intro i hi h
    have := hP.own _ h
    rwa [pl_d i hi] at this
  have img : A.image f = elems ps := by
    refine Finset.eq_of_subset_of_card_le (fun p hp => ?_) ?_
    · obtain ⟨i, hi, rfl⟩ := Finset.mem_image.mp hp
      obtain ⟨h1, h2⟩ := (mA i).mp hi
      have := (a5 _ h2).2 (pl i) ((x1 i h1 _).mpr (pl_a i h1)) (own i h1 (openA i hi))
      rw [x2 i h1] at this
      exact this
    · rw [Finset.card_image_of_injOn (fun i hi j hj he => finj i ((mA i).mp hi).1 j ((mA j).mp hj).1 he), cardA, a2]
  let O : Finset Nat := (Finset.range 9).filter (fun i => ¬ F (pl i) ∧ i ∉ A)
  have mO : ∀ i, i ∈ O ↔ i < 9 ∧ ¬ F (pl i) ∧ i ∉ A := fun i => by simp [O]
  have split_a : ∀ c, P c d0 → (a c ∈ O ↔ a c ∉ A) := fun c hc => by
    rw [mO]
    exact ⟨fun h => h.2.2, fun h => ⟨al c, opn c hc, h⟩⟩
  have split_b : ∀ c, P c d0 → (b c ∈ A.image f ↔ b c ∉ O.image f) := by
    intro c hc
    constructor
    · intro h1 h2
      obtain ⟨i, hi, e1⟩ := Finset.mem_image.mp h1
      obtain ⟨j, hj, e2⟩ := Finset.mem_image.mp h2
      have hj' := (mO j).mp hj
      exact hj'.2.2 (finj i ((mA i).mp hi).1 j hj'.1 (e1.trans e2.symm) ▸ hi)
    · intro hno
      obtain ⟨q, hq, hqd⟩ := place_exists ht ⟨9 - dir + b c, by have := bl c; omega⟩ d0
      have hbq : b q = b c := (x3 _ (bl c) q).mp hq
      have hq' : ¬ F q := hP.empty _ _ (hP.open_place (x6 _ _ hbq) hc hqd)
      have he : f (a q) = b c := by
        show b (pl (a q)) = b c
        rw [pl_eq q hqd, hbq]
      by_cases hA : a q ∈ A
      · exact Finset.mem_image.mpr ⟨_, hA, he⟩
      · exact absurd (Finset.mem_image.mpr ⟨_, (mO _).mpr ⟨al q, by rw [pl_eq q hqd]; exact hq', hA⟩, he⟩) hno
  have fl : ∀ i, f i < 9 := fun i => bl _
  obtain ⟨ps', e1⟩ := bits16 (A := O) fun i hi => ((mO i).mp hi).1
  obtain ⟨ls', e2⟩ := bits_exists 32 ((O.image f).image (fun j => 9 - dir + j)) fun i hi => by
    obtain ⟨j, hj, rfl⟩ := Finset.mem_image.mp hi
    obtain ⟨k, -, rfl⟩ := Finset.mem_image.mp hj
    have := fl k
    omega
  have hasL : ∀ j, Pattern.Has ls' (9 - dir + j) ↔ j ∈ O.image f := by
    intro j
    unfold Pattern.Has
    rw [e2, Finset.mem_image]
    exact ⟨fun ⟨k, hk, he⟩ => by rw [show j = k by omega]; exact hk, fun hj => ⟨j, hj, rfl⟩⟩
  have hasP : ∀ i, Pattern.Has ps' i ↔ i ∈ O := fun i => by unfold Pattern.Has; rw [e1]
  have formL : ∀ k, Pattern.Has ls' k → ∃ i ∈ O, k = 9 - dir + f i := by
    intro k hk
    unfold Pattern.Has at hk
    rw [e2] at hk
    obtain ⟨j, hj, rfl⟩ := Finset.mem_image.mp hk
    obtain ⟨i, hi, rfl⟩ := Finset.mem_image.mp hj
    exact ⟨i, hi, rfl⟩
  have cardO : (O.image f).card = O.card := Finset.card_image_of_injOn fun i hi j hj he =>
    finj i ((mO i).mp hi).1 j ((mO j).mp hj).1 he
  have hl0 : l0 = dir + a c0 := by
    have := (x1 (l0 - dir) (by omega) c0).mp (by rw [show dir + (l0 - dir) = l0 by omega]; exact g4)
    omega
  refine ⟨O.card, ls', ps', ?_, ?_, ?_, ?_, ?_, 9 - dir, by omega, ?_, ?_, hne, ?_⟩
  · rw [← cardA, ← Finset.card_union_of_disjoint]
    · refine (Finset.card_le_card (t := Finset.range 9) fun p hp => ?_).trans (by simp)
      rcases Finset.mem_union.mp hp with h1 | h1
      · exact Finset.mem_range.mpr ((mA p).mp h1).1
      · exact Finset.mem_range.mpr ((mO p).mp h1).1
    · rw [Finset.disjoint_left]
      exact fun p h1 h2 => ((mO p).mp h2).2.2 h1
  · refine Finset.card_pos.mpr ⟨a c0, (split_a c0 hcd0).mpr fun h => g3 ?_⟩
    rw [hl0]
    exact ((mA _).mp h).2
  · rw [e2, Finset.card_image_of_injective _ (fun x y h => by simpa using h), cardO]
  · rw [e1]
  · intro p hp
    exact ((mO p).mp ((hasP p).mp hp)).1
  · intro k hk
    obtain ⟨i, -, rfl⟩ := formL k hk
    have := fl i
    omega
  · intro k hk
    obtain ⟨i, hi, rfl⟩ := formL k hk
    obtain ⟨h1, h2, h3⟩ := (mO i).mp hi
    refine ⟨⟨pl i, (x3 _ (fl i) _).mpr rfl, own i h1 h2⟩, fun c hc hcd => ?_⟩
    rw [x4 _ (fl i), hasP, split_a c hcd]
    intro hA
    have hb : b c = f i := (x3 _ (fl i) c).mp hc
    have hA' := (mA _).mp hA
    have := (a5 _ hA'.2).2 c ((x1 _ (al c) c).mpr rfl) hcd
    rw [x2 _ (al c)] at this
    have : b c ∈ A.image f := img ▸ this
    exact (split_b c hcd).mp this (Finset.mem_image.mpr ⟨i, hi, hb.symm⟩)
  · intro c d
    rw [a6]
    refine and_congr_left fun hcd => and_congr_right fun hd => ?_
    have hd : d = d0 := hd
    subst hd
    have key1 : (∃ k, dir ≤ k ∧ k < dir + 9 ∧ ¬ Pattern.Has ls k ∧ Pattern.InHouse k c ∧ Pattern.Has ps (Pattern.posIn k c)) ↔
        a c ∉ A ∧ b c ∈ A.image f := by
      constructor
      · rintro ⟨k, k1, k2, k3, k4, k5⟩
        obtain ⟨i, rfl⟩ : ∃ i, k = dir + i := ⟨k - dir, by omega⟩
        have hi : i < 9 := by omega
        have hac := (x1 i hi c).mp k4
        rw [x2 i hi] at k5
        exact ⟨fun h => k3 (by have := ((mA _).mp h).2; rwa [hac] at this), by rw [img]; exact k5⟩
      · rintro ⟨h1, h2⟩
        rw [img] at h2
        exact ⟨dir + a c, by omega, by have := al c; omega, fun h => h1 ((mA _).mpr ⟨al c, h⟩), (x1 _ (al c) c).mpr rfl,
          by rw [x2 _ (al c)]; exact h2⟩
    have key2 : (∃ k, 9 - dir ≤ k ∧ k < 9 - dir + 9 ∧ ¬ Pattern.Has ls' k ∧ Pattern.InHouse k c ∧
        Pattern.Has ps' (Pattern.posIn k c)) ↔ b c ∉ O.image f ∧ a c ∈ O := by
      constructor
      · rintro ⟨k, k1, k2, k3, k4, k5⟩
        obtain ⟨i, rfl⟩ : ∃ i, k = 9 - dir + i := ⟨k - (9 - dir), by omega⟩
        have hi : i < 9 := by omega
        have hbc := (x3 i hi c).mp k4
        rw [x4 i hi] at k5
        exact ⟨fun h => k3 ((hasL i).mpr (hbc ▸ h)), (hasP _).mp k5⟩
      · rintro ⟨h1, h2⟩
        exact ⟨9 - dir + b c, by omega, by have := bl c; omega, fun h => h1 ((hasL _).mp h), (x3 _ (bl c) c).mpr rfl,
          by rw [x4 _ (bl c)]; exact (hasP _).mpr h2⟩
    rw [key1, key2, split_a c hcd, split_b c hcd]
    exact and_comm

end Verif.Strat
