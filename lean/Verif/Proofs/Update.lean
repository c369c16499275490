import Verif.Proofs.TableFacts

/-! Bit-level specification of `_find_locked_candidates_and_update`. -/
namespace Verif.FastSolver

theorem toNat_lt_of_bits {m : Mask} {n : Nat} (h : ∀ i ≥ n, m.getLsbD i = false) : m.toNat < 2 ^ n := by
  apply Nat.lt_pow_two_of_testBit
  intro i hi
  exact h i hi

theorem lookup_spec {tbl n f} (h : tcheck tbl n f = true) {x : Nat} (hx : x < n) :
    ∃ v, lookup tbl x = .ok (BitVec.ofNat 32 v) ∧ f x v = true := by
  obtain ⟨v, h1, h2⟩ := tcheck_spec h hx
  exact ⟨v, by simp [lookup, h1], h2⟩

theorem getLsbD_ofNat32 {v c : Nat} (h : c < 32) : (BitVec.ofNat 32 v).getLsbD c = v.testBit c := by
  rw [BitVec.getLsbD_ofNat]; simp [h]

theorem shrinkMask_spec {m : Mask} (h : m.toNat < 512) :
    ∃ v : Mask, shrinkMask m = .ok v ∧ v.toNat < 8 ∧
      ∀ k < 3, v.getLsbD k = (m.getLsbD (3 * k) || m.getLsbD (3 * k + 1) || m.getLsbD (3 * k + 2)) := by
  obtain ⟨v, h1, h2⟩ := lookup_spec shrink_table h
  simp only [Bool.and_eq_true, decide_eq_true_eq] at h2
  refine ⟨_, h1, ?_, ?_⟩
  · rw [BitVec.toNat_ofNat]; exact lt_of_le_of_lt (Nat.mod_le _ _) h2.1
  · intro k hk
    have := all3_spec h2.2 hk
    rw [getLsbD_ofNat32 (by omega)]
    exact beq_iff_eq.1 this

theorem getLsbD_LOW9 (c : Nat) : LOW9.getLsbD c = decide (c < 9) := by
  have h : LOW9 = BitVec.ofNat 32 (2 ^ 9 - 1) := rfl
  rw [h, BitVec.getLsbD_ofNat, Nat.testBit_two_pow_sub_one]
  by_cases hc : c < 9 <;> simp [hc] <;> omega

theorem getLsbD_ALL (c : Nat) : ALL.getLsbD c = decide (c < 27) := by
  have h : ALL = BitVec.ofNat 32 (2 ^ 27 - 1) := rfl
  rw [h, BitVec.getLsbD_ofNat, Nat.testBit_two_pow_sub_one]
  by_cases hc : c < 27 <;> simp [hc] <;> omega

/-- The shrunk mask of a band mask. -/
theorem shrink_spec {old : Mask} (hlt : ∀ c ≥ 27, old.getLsbD c = false) :
    ∃ a b c : Mask, shrinkMask (old &&& LOW9) = .ok a ∧ shrinkMask ((old >>> 9) &&& LOW9) = .ok b ∧
      shrinkMask (old >>> 18) = .ok c ∧
      (a ||| (b <<< 3) ||| (c <<< 6)).toNat < 512 ∧
      ∀ r < 3, ∀ k < 3, (a ||| (b <<< 3) ||| (c <<< 6)).toNat.testBit (3 * r + k) =
        (old.getLsbD (9 * r + 3 * k) || old.getLsbD (9 * r + 3 * k + 1)
          || old.getLsbD (9 * r + 3 * k + 2)) := by
  have l0 : (old &&& LOW9).toNat < 2 ^ 9 := toNat_lt_of_bits (by
    intro i hi; simp [getLsbD_LOW9, Nat.not_lt.2 hi])
  have l1 : ((old >>> 9) &&& LOW9).toNat < 2 ^ 9 := toNat_lt_of_bits (by
    intro i hi; simp [getLsbD_LOW9, Nat.not_lt.2 hi])
  have l2 : (old >>> 18).toNat < 2 ^ 9 := toNat_lt_of_bits (by
    intro i hi; rw [BitVec.getLsbD_ushiftRight]; exact hlt _ (by omega))
  obtain ⟨a, ha, ha', ha''⟩ := shrinkMask_spec l0
  obtain ⟨b, hb, hb', hb''⟩ := shrinkMask_spec l1
  obtain ⟨c, hc, hc', hc''⟩ := shrinkMask_spec l2
  have bits : ∀ {x : Mask}, x.toNat < 8 → ∀ i ≥ 3, x.getLsbD i = false := by
    intro x hx i hi
    exact Nat.testBit_lt_two_pow (lt_of_lt_of_le hx (by
      calc 8 = 2 ^ 3 := rfl
        _ ≤ 2 ^ i := Nat.pow_le_pow_right (by omega) hi))
  refine ⟨a, b, c, ha, hb, hc, ?_, ?_⟩
  · have : (a ||| (b <<< 3) ||| (c <<< 6)).toNat < 2 ^ 9 := toNat_lt_of_bits (by
      intro i hi
      simp only [BitVec.getLsbD_or, BitVec.getLsbD_shiftLeft]
      rw [bits ha' i (by omega), bits hb' (i - 3) (by omega), bits hc' (i - 6) (by omega)]
      simp)
    exact this
  · intro r hr k hk
    change (a ||| (b <<< 3) ||| (c <<< 6)).getLsbD (3 * r + k) = _
    simp only [BitVec.getLsbD_or, BitVec.getLsbD_shiftLeft]
    have a1 := ha'' k hk
    have b1 := hb'' k hk
    have c1 := hc'' k hk
    simp only [BitVec.getLsbD_and, getLsbD_LOW9, BitVec.getLsbD_ushiftRight] at a1 b1 c1
    match r, hr with
    | 0, _ =>
      have e1 : 3 * 0 + k < 3 := by omega
      have e2 : 3 * 0 + k < 6 := by omega
      simp only [e1, e2, decide_true, Bool.not_true, Bool.and_false, Bool.false_and, Bool.or_false]
      rw [show 3 * 0 + k = k by omega, a1]
      simp [show 3 * k < 9 by omega, show 3 * k + 1 < 9 by omega, show 3 * k + 2 < 9 by omega]
    | 1, _ =>
      have e0 : a.getLsbD (3 * 1 + k) = false := bits ha' _ (by omega)
      have e1 : ¬ 3 * 1 + k < 3 := by omega
      have e2 : 3 * 1 + k < 6 := by omega
      have e3 : 3 * 1 + k < 32 := by omega
      simp only [e0, e1, e2, e3, decide_true, decide_false, Bool.not_true, Bool.not_false,
        Bool.and_false, Bool.false_and, Bool.or_false, Bool.false_or, Bool.true_and]
      rw [show 3 * 1 + k - 3 = k by omega, b1]
      simp [show 3 * k < 9 by omega, show 3 * k + 1 < 9 by omega, show 3 * k + 2 < 9 by omega,
        Nat.add_assoc]
    | 2, _ =>
      have e0 : a.getLsbD (3 * 2 + k) = false := bits ha' _ (by omega)
      have e0' : b.getLsbD (3 * 2 + k - 3) = false := bits hb' _ (by omega)
      have e2 : ¬ 3 * 2 + k < 6 := by omega
      have e3 : 3 * 2 + k < 32 := by omega
      simp only [e0, e0', e2, e3, decide_true, decide_false, Bool.not_true, Bool.not_false,
        Bool.and_false, Bool.false_and, Bool.or_false, Bool.false_or, Bool.true_and]
      rw [show 3 * 2 + k - 6 = k by omega, c1]
      simp [Nat.add_assoc]

/-! ### Abstract notions on band masks -/

/-- Every row of the band contains a bit of `q`. -/
def RowFull (q : Mask) : Prop := ∀ r < 3, ∃ c < 27, q.getLsbD c = true ∧ c / 9 = r
/-- Every block of the band contains a bit of `q`. -/
def BlockFull (q : Mask) : Prop := ∀ k < 3, ∃ c < 27, q.getLsbD c = true ∧ c % 9 / 3 = k
/-- `c` is the only bit of `q` in its row and in its block. -/
def LoneIn (q : Mask) (c : Nat) : Prop :=
  q.getLsbD c = true ∧ ∀ c' < 27, q.getLsbD c' = true → bandConflict c' c = true → c' = c
/-- `col` is a column of `q`, and the only one in its stack. -/
def OnlyColIn (q : Mask) (col : Nat) : Prop :=
  (∃ c < 27, q.getLsbD c = true ∧ c % 9 = col) ∧
  ∀ c < 27, q.getLsbD c = true → c % 9 / 3 = col / 3 → c % 9 = col

/-- `b` has all bits of `a`. -/
def MSub (a b : Mask) : Prop := ∀ c, a.getLsbD c = true → b.getLsbD c = true

theorem lt3_cases {k : Nat} (h : k < 3) : k = 0 ∨ k = 1 ∨ k = 2 := by omega

theorem getLsbD_cols {q : Mask} (j : Nat) (hj : j < 9) (hq : ∀ c ≥ 27, q.getLsbD c = false) :
    ((q ||| (q >>> 9) ||| (q >>> 18)) &&& LOW9).toNat.testBit j = true ↔
      ∃ c < 27, q.getLsbD c = true ∧ c % 9 = j := by
  change ((q ||| (q >>> 9) ||| (q >>> 18)) &&& LOW9).getLsbD j = true ↔ _
  simp only [BitVec.getLsbD_and, BitVec.getLsbD_or, BitVec.getLsbD_ushiftRight, getLsbD_LOW9, hj,
    decide_true, Bool.and_true, Bool.or_eq_true]
  constructor
  · rintro ((h | h) | h)
    · exact ⟨j, by omega, h, by omega⟩
    · exact ⟨9 + j, by omega, h, by omega⟩
    · exact ⟨18 + j, by omega, h, by omega⟩
  · rintro ⟨c, hc, h, e⟩
    have : c = j ∨ c = 9 + j ∨ c = 18 + j := by omega
    rcases this with rfl | rfl | rfl
    · exact Or.inl (Or.inl h)
    · exact Or.inl (Or.inr h)
    · exact Or.inr h

theorem onlyCol_iff {q : Mask} (hq : ∀ c ≥ 27, q.getLsbD c = false) (j : Nat) (hj : j < 9) :
    onlyCol ((q ||| (q >>> 9) ||| (q >>> 18)) &&& LOW9).toNat j = true ↔ OnlyColIn q j := by
  simp only [onlyCol, Bool.and_eq_true, getLsbD_cols j hj hq, OnlyColIn, List.all_eq_true,
    List.mem_range, Bool.or_eq_true, beq_iff_eq]
  apply and_congr_right
  intro _
  constructor
  · intro h c hc hqc e
    have := h (c % 9 % 3) (by omega)
    have e2 : 3 * (j / 3) + c % 9 % 3 = c % 9 := by omega
    rw [e2] at this
    rcases this with g | g
    · exact g
    · exfalso
      have h' : ((q ||| (q >>> 9) ||| (q >>> 18)) &&& LOW9).toNat.testBit (c % 9) = true :=
        (getLsbD_cols (c % 9) (by omega) hq).2 ⟨c, hc, hqc, rfl⟩
      rw [h'] at g; cases g
  · intro h j' hj'
    by_cases hb : ((q ||| (q >>> 9) ||| (q >>> 18)) &&& LOW9).toNat.testBit (3 * (j / 3) + j') = true
    · left
      obtain ⟨c, hc, hqc, e⟩ := (getLsbD_cols _ (by omega) hq).1 hb
      have := h c hc hqc (by omega)
      omega
    · right; rw [Bool.eq_false_iff.2 hb]; rfl

theorem inU_iff {x r k : Nat} : inU x r k = true ↔ ∃ p ∈ perms3, okPerm x p = true ∧ permAt p r = k := by
  simp [inU]

/-- What the same-band step computes. -/
theorem locked_spec {old sh sm : Mask} (hlt : ∀ c ≥ 27, old.getLsbD c = false)
    (hsh : sh.toNat < 512)
    (hbits : ∀ r < 3, ∀ k < 3, sh.toNat.testBit (3 * r + k) =
        (old.getLsbD (9 * r + 3 * k) || old.getLsbD (9 * r + 3 * k + 1)
          || old.getLsbD (9 * r + 3 * k + 2)))
    (hsm : sameBandByLocked sh = .ok sm) :
    (∀ c, (old &&& sm).getLsbD c = true ↔ old.getLsbD c = true ∧ inU sh.toNat (c / 9) (c % 9 / 3) = true) := by
  obtain ⟨v, h1, h2⟩ := lookup_spec same_table hsh
  have : sm = BitVec.ofNat 32 v := by
    unfold sameBandByLocked at hsm
    rw [h1] at hsm; injection hsm with h; exact h.symm
  subst this
  intro c
  rw [BitVec.getLsbD_and, Bool.and_eq_true]
  apply and_congr_right
  intro hc
  have hc27 : c < 27 := by
    by_contra h
    rw [hlt c (by omega)] at hc; cases hc
  rw [getLsbD_ofNat32 (by omega)]
  have h3 := all3_spec (all3_spec (all3_spec h2 (i := c / 9) (by omega)) (i := c % 9 / 3) (by omega))
    (i := c % 3) (by omega)
  have e : 9 * (c / 9) + 3 * (c % 9 / 3) + c % 3 = c := by omega
  rw [e] at h3
  have hx : sh.toNat.testBit (3 * (c / 9) + c % 9 / 3) = true := by
    rw [hbits _ (by omega) _ (by omega)]
    have : c % 3 = 0 ∨ c % 3 = 1 ∨ c % 3 = 2 := by omega
    rcases this with g | g | g
    · rw [show 9 * (c / 9) + 3 * (c % 9 / 3) = c by omega]; simp [hc]
    · rw [show 9 * (c / 9) + 3 * (c % 9 / 3) + 1 = c by omega]; simp [hc]
    · rw [show 9 * (c / 9) + 3 * (c % 9 / 3) + 2 = c by omega]; simp [hc]
  rw [hx] at h3
  simp only [Bool.not_true, Bool.false_or, beq_iff_eq] at h3
  rw [h3]

section
variable {old q : Mask} {x : Nat}
  (hlt : ∀ c ≥ 27, old.getLsbD c = false)
  (hbits : ∀ r < 3, ∀ k < 3, x.testBit (3 * r + k) =
        (old.getLsbD (9 * r + 3 * k) || old.getLsbD (9 * r + 3 * k + 1)
          || old.getLsbD (9 * r + 3 * k + 2)))
  (hq : ∀ c, q.getLsbD c = true ↔ old.getLsbD c = true ∧ inU x (c / 9) (c % 9 / 3) = true)
include hlt hbits hq

omit hlt hq in
theorem testBit_of_old {c : Nat} (hc : c < 27) (h : old.getLsbD c = true) :
    x.testBit (3 * (c / 9) + c % 9 / 3) = true := by
  rw [hbits _ (by omega) _ (by omega)]
  have : c % 3 = 0 ∨ c % 3 = 1 ∨ c % 3 = 2 := by omega
  rcases this with g | g | g
  · rw [show 9 * (c / 9) + 3 * (c % 9 / 3) = c by omega]; simp [h]
  · rw [show 9 * (c / 9) + 3 * (c % 9 / 3) + 1 = c by omega]; simp [h]
  · rw [show 9 * (c / 9) + 3 * (c % 9 / 3) + 2 = c by omega]; simp [h]

omit hlt in
theorem exists_of_inU {r k : Nat} (hr : r < 3) (hk : k < 3) (h : inU x r k = true) :
    ∃ c < 27, q.getLsbD c = true ∧ c / 9 = r ∧ c % 9 / 3 = k := by
  have hb : x.testBit (3 * r + k) = true := by
    obtain ⟨p, hp, hok, hk'⟩ := inU_iff.1 h
    simp only [okPerm, Bool.and_eq_true] at hok
    subst hk'
    rcases lt3_cases hr with rfl | rfl | rfl
    · simpa [permAt] using hok.1.1
    · simpa [permAt] using hok.1.2
    · simpa [permAt] using hok.2
  rw [hbits r hr k hk] at hb
  simp only [Bool.or_eq_true] at hb
  rcases hb with (g | g) | g
  · exact ⟨_, by omega, (hq _).2 ⟨g, by
      rw [show (9 * r + 3 * k) / 9 = r by omega, show (9 * r + 3 * k) % 9 / 3 = k by omega]; exact h⟩,
      by omega, by omega⟩
  · exact ⟨_, by omega, (hq _).2 ⟨g, by
      rw [show (9 * r + 3 * k + 1) / 9 = r by omega, show (9 * r + 3 * k + 1) % 9 / 3 = k by omega]; exact h⟩,
      by omega, by omega⟩
  · exact ⟨_, by omega, (hq _).2 ⟨g, by
      rw [show (9 * r + 3 * k + 2) / 9 = r by omega, show (9 * r + 3 * k + 2) % 9 / 3 = k by omega]; exact h⟩,
      by omega, by omega⟩

omit hlt hbits hq in
theorem permAt_lt {p : Nat × Nat × Nat} (hp : p ∈ perms3) (r : Nat) : permAt p r < 3 := by
  simp only [perms3, List.mem_cons, List.not_mem_nil, or_false] at hp
  rcases hp with rfl | rfl | rfl | rfl | rfl | rfl <;>
    (unfold permAt; split <;> simp)

omit hlt in
theorem full_of_ne_zero (h : q ≠ 0) : RowFull q ∧ BlockFull q := by
  obtain ⟨c, hc⟩ := exists_getLsbD h
  obtain ⟨p, hp, hok, _⟩ := inU_iff.1 ((hq c).1 hc).2
  have key : ∀ r, inU x r (permAt p r) = true := fun r => inU_iff.2 ⟨p, hp, hok, rfl⟩
  constructor
  · intro r hr
    obtain ⟨c, h1, h2, h3, _⟩ := exists_of_inU hbits hq hr (permAt_lt hp r) (key r)
    exact ⟨c, h1, h2, h3⟩
  · intro k hk
    have : ∃ r < 3, permAt p r = k := by
      simp only [perms3, List.mem_cons, List.not_mem_nil, or_false] at hp
      rcases lt3_cases hk with rfl | rfl | rfl <;> rcases hp with rfl | rfl | rfl | rfl | rfl | rfl <;>
        first
          | exact ⟨0, by omega, rfl⟩
          | exact ⟨1, by omega, rfl⟩
          | exact ⟨2, by omega, rfl⟩
    obtain ⟨r, hr, rfl⟩ := this
    obtain ⟨c, h1, h2, _, h4⟩ := exists_of_inU hbits hq hr (permAt_lt hp r) (key r)
    exact ⟨c, h1, h2, h4⟩

omit hlt in
/-- A placement of the digit inside `old` survives in `q`. -/
theorem placement_survives {c0 c1 c2 : Nat} (h0 : c0 / 9 = 0) (h1 : c1 / 9 = 1) (h2 : c2 / 9 = 2)
    (o0 : old.getLsbD c0 = true) (o1 : old.getLsbD c1 = true) (o2 : old.getLsbD c2 = true)
    (d01 : c0 % 9 / 3 ≠ c1 % 9 / 3) (d02 : c0 % 9 / 3 ≠ c2 % 9 / 3) (d12 : c1 % 9 / 3 ≠ c2 % 9 / 3) :
    q.getLsbD c0 = true ∧ q.getLsbD c1 = true ∧ q.getLsbD c2 = true := by
  have b0 := testBit_of_old (x := x) hbits (by omega) o0
  have b1 := testBit_of_old (x := x) hbits (by omega) o1
  have b2 := testBit_of_old (x := x) hbits (by omega) o2
  rw [h0] at b0; rw [h1] at b1; rw [h2] at b2
  have hmem : (c0 % 9 / 3, c1 % 9 / 3, c2 % 9 / 3) ∈ perms3 := by
    have a0 : c0 % 9 / 3 < 3 := by omega
    have a1 : c1 % 9 / 3 < 3 := by omega
    have a2 : c2 % 9 / 3 < 3 := by omega
    rcases lt3_cases a0 with e0 | e0 | e0 <;> rcases lt3_cases a1 with e1 | e1 | e1 <;>
      rcases lt3_cases a2 with e2 | e2 | e2 <;> rw [e0, e1, e2] <;> rw [e0, e1] at d01 <;>
      rw [e0, e2] at d02 <;> rw [e1, e2] at d12 <;> first | contradiction | decide
  have hok : okPerm x (c0 % 9 / 3, c1 % 9 / 3, c2 % 9 / 3) = true := by
    simp only [okPerm, Bool.and_eq_true]
    exact ⟨⟨by simpa using b0, by simpa using b1⟩, by simpa using b2⟩
  refine ⟨(hq _).2 ⟨o0, ?_⟩, (hq _).2 ⟨o1, ?_⟩, (hq _).2 ⟨o2, ?_⟩⟩
  · rw [h0]; exact inU_iff.2 ⟨_, hmem, hok, rfl⟩
  · rw [h1]; exact inU_iff.2 ⟨_, hmem, hok, rfl⟩
  · rw [h2]; exact inU_iff.2 ⟨_, hmem, hok, rfl⟩

/-- The row `r` is marked solved iff its only bit in `q` is alone in row and block. -/
theorem solvedRow_iff (hx : x < 512) (hne : q ≠ 0) {lk cs : Mask}
    (hlk : lookup Tables.lockedMinirows x = .ok lk)
    (hcs : columnSingle ((q ||| (q >>> 9) ||| (q >>> 18)) &&& LOW9) = .ok cs)
    {c : Nat} (hc : q.getLsbD c = true) :
    (∃ k < 3, (lk &&& cs).getLsbD (3 * (c / 9) + k) = true) ↔ LoneIn q c := by
  have hq27 : ∀ c ≥ 27, q.getLsbD c = false := by
    intro c hc
    by_contra h
    have := ((hq c).1 (by simpa using h)).1
    rw [hlt c hc] at this; cases this
  have hc27 : c < 27 := by
    by_contra h
    rw [hq27 c (by omega)] at hc; cases hc
  obtain ⟨v, h1, h2⟩ := lookup_spec locked_table hx
  have e1 : lk = BitVec.ofNat 32 v := by rw [h1] at hlk; injection hlk with h; exact h.symm
  subst e1
  have hcols : ((q ||| (q >>> 9) ||| (q >>> 18)) &&& LOW9).toNat < 2 ^ 9 := toNat_lt_of_bits (by
    intro i hi; simp [getLsbD_LOW9, Nat.not_lt.2 hi])
  obtain ⟨w, g1, g2⟩ := lookup_spec colsingle_table hcols
  have e2 : cs = BitVec.ofNat 32 w := by
    unfold columnSingle at hcs; rw [g1] at hcs; injection hcs with h; exact h.symm
  subst e2
  simp only [Bool.and_eq_true, decide_eq_true_eq] at h2 g2
  obtain ⟨_, hbf⟩ := full_of_ne_zero hbits hq hne
  have hstack : (all3 fun k' =>
      ((q ||| (q >>> 9) ||| (q >>> 18)) &&& LOW9).toNat.testBit (3 * k') ||
      ((q ||| (q >>> 9) ||| (q >>> 18)) &&& LOW9).toNat.testBit (3 * k' + 1) ||
      ((q ||| (q >>> 9) ||| (q >>> 18)) &&& LOW9).toNat.testBit (3 * k' + 2)) = true := by
    have : ∀ k' < 3, (((q ||| (q >>> 9) ||| (q >>> 18)) &&& LOW9).toNat.testBit (3 * k') ||
      ((q ||| (q >>> 9) ||| (q >>> 18)) &&& LOW9).toNat.testBit (3 * k' + 1) ||
      ((q ||| (q >>> 9) ||| (q >>> 18)) &&& LOW9).toNat.testBit (3 * k' + 2)) = true := by
      intro k' hk'
      obtain ⟨c, hc, hqc, e⟩ := hbf k' hk'
      have hb : ((q ||| (q >>> 9) ||| (q >>> 18)) &&& LOW9).toNat.testBit (c % 9) = true :=
        (getLsbD_cols _ (by omega) hq27).2 ⟨c, hc, hqc, rfl⟩
      have : c % 9 = 3 * k' ∨ c % 9 = 3 * k' + 1 ∨ c % 9 = 3 * k' + 2 := by omega
      rcases this with g | g | g <;> rw [g] at hb <;> rw [hb] <;> simp only [Bool.true_or, Bool.or_true]
    exact all3_intro this
  have bit : ∀ k < 3, (BitVec.ofNat 32 v &&& BitVec.ofNat 32 w).getLsbD (3 * (c / 9) + k) = true ↔
      (inU x (c / 9) k = true ∧ ∀ k' < 3, k' ≠ k → inU x (c / 9) k' = false) ∧
      ∃ j < 3, OnlyColIn q (3 * k + j) := by
    intro k hk
    rw [BitVec.getLsbD_and, Bool.and_eq_true, getLsbD_ofNat32 (by omega), getLsbD_ofNat32 (by omega)]
    have p1 := all3_spec (all3_spec h2.2 (i := c / 9) (by omega)) hk
    have p2 := all3_spec (all3_spec g2.2 (i := c / 9) (by omega)) hk
    simp only [beq_iff_eq] at p1 p2
    rw [p1, p2, hstack]
    simp only [Bool.true_and, Bool.or_eq_true, Bool.and_eq_true]
    rw [onlyCol_iff hq27 _ (by omega), onlyCol_iff hq27 _ (by omega), onlyCol_iff hq27 _ (by omega)]
    apply and_congr
    · apply and_congr_right
      intro _
      constructor
      · intro h k' hk' hne
        have := all3_spec h hk'
        simpa [hne] using this
      · intro h
        have : ∀ k' < 3, (k' == k || !inU x (c / 9) k') = true := by
          intro k' hk'
          by_cases e : k' = k
          · simp [e]
          · simp [h k' hk' e]
        exact all3_intro this
    · constructor
      · rintro ((h | h) | h)
        · exact ⟨0, by omega, h⟩
        · exact ⟨1, by omega, h⟩
        · exact ⟨2, by omega, h⟩
      · rintro ⟨j, hj, h⟩
        rcases lt3_cases hj with rfl | rfl | rfl
        · exact Or.inl (Or.inl h)
        · exact Or.inl (Or.inr h)
        · exact Or.inr h
  have huniq := List.all_eq_true.1 inU_unique_block x (List.mem_range.2 hx)
  constructor
  · rintro ⟨k, hk, hb⟩
    obtain ⟨⟨hU, hUn⟩, j, hj, hcol⟩ := (bit k hk).1 hb
    have hck : c % 9 / 3 = k := by
      by_contra hne
      have := ((hq c).1 hc).2
      rw [hUn _ (by omega) hne] at this; cases this
    have hblk : ∀ r' < 3, r' ≠ c / 9 → inU x r' k = false := by
      intro r' hr' hne
      have h3 := all3_spec (all3_spec huniq (i := c / 9) (by omega)) hk
      simp only [Bool.or_eq_true, Bool.not_eq_true', Bool.and_eq_false_iff] at h3
      rcases h3 with (h3 | h3) | h3
      · rw [hU] at h3; cases h3
      · exfalso
        have : ∀ k' < 3, (k' == k || !inU x (c / 9) k') = true := by
          intro k' hk'
          by_cases e : k' = k
          · simp [e]
          · simp [hUn k' hk' e]
        rw [all3_intro this] at h3
        cases h3
      · have := all3_spec h3 hr'
        simpa [hne] using this
    refine ⟨hc, fun c' hc' hqc' hconf => ?_⟩
    have hU' := ((hq c').1 hqc').2
    simp only [bandConflict, Bool.or_eq_true, beq_iff_eq] at hconf
    have hrow : c' / 9 = c / 9 ∧ c' % 9 / 3 = k := by
      rcases hconf with e | e
      · refine ⟨e, ?_⟩
        by_contra hne
        rw [e, hUn _ (by omega) hne] at hU'; cases hU'
      · refine ⟨?_, by omega⟩
        by_contra hne
        rw [show c' % 9 / 3 = k by omega, hblk _ (by omega) hne] at hU'; cases hU'
    have f1 := hcol.2 c hc27 hc (by omega)
    have f2 := hcol.2 c' hc' hqc' (by omega)
    omega
  · intro hl
    have hck : c % 9 / 3 < 3 := by omega
    refine ⟨c % 9 / 3, hck, (bit _ hck).2 ⟨⟨((hq c).1 hc).2, ?_⟩, c % 9 % 3, by omega, ?_⟩⟩
    · intro k' hk' hne
      by_contra h
      obtain ⟨c', h1, h2, h3, h4⟩ := exists_of_inU hbits hq (r := c / 9) (by omega) hk' (by simpa using h)
      have := hl.2 c' h1 h2 (by simp [bandConflict, h3])
      subst this
      exact hne h4.symm
    · have e : 3 * (c % 9 / 3) + c % 9 % 3 = c % 9 := by omega
      rw [e]
      refine ⟨⟨c, hc27, hc, rfl⟩, fun c' h1 h2 h3 => ?_⟩
      have := hl.2 c' h1 h2 (by simp [bandConflict, h3])
      rw [this]
end

end Verif.FastSolver
