import Verif.Proofs.StratIdle

/-!
# Patterns that the strategies do not search for are found by other strategies
-/
namespace Verif.Strat

open Verif Verif.Bitset

/-- `a`, `b` and `c` are in one row, column or block. -/
def Common (a b c : Fin 81) : Prop :=
  (rowOf a = rowOf b ∧ rowOf a = rowOf c) ∨ (colOf a = colOf b ∧ colOf a = colOf c) ∨ (blockOf a = blockOf b ∧ blockOf a = blockOf c)

theorem block_eq_iff {a b : Fin 81} : blockOf a = blockOf b ↔ rowOf a / 3 = rowOf b / 3 ∧ colOf a / 3 = colOf b / 3 := by
  unfold blockOf colOf
  omega

theorem common_of {a b c : Fin 81} (h1 : SameHouse a b) (h2 : SameHouse a c) (h3 : SameHouse b c) : Common a b c := by
  unfold SameHouse at h1 h2 h3
  unfold Common
  rw [block_eq_iff] at *
  rw [block_eq_iff]
  rcases h1 with h1 | h1 | h1 <;> rcases h2 with h2 | h2 | h2 <;> rcases h3 with h3 | h3 | h3 <;> omega

theorem inHouse_row {a c : Fin 81} : Pattern.InHouse (rowOf a) c ↔ rowOf c = rowOf a := by
  have : rowOf a < 9 := by unfold rowOf; omega
  unfold Pattern.InHouse
  rw [if_pos this]

theorem inHouse_col {a c : Fin 81} : Pattern.InHouse (9 + colOf a) c ↔ colOf c = colOf a := by
  have : colOf a < 9 := by unfold colOf; omega
  unfold Pattern.InHouse
  rw [if_neg (by omega), if_pos (by omega)]
  omega

theorem inHouse_block {a c : Fin 81} : Pattern.InHouse (18 + blockOf a) c ↔ blockOf c = blockOf a := by
  unfold Pattern.InHouse
  rw [if_neg (by omega), if_neg (by omega)]
  omega

theorem block_lt (a : Fin 81) : blockOf a < 9 := by unfold blockOf rowOf colOf; omega

theorem posIn_inj : ∀ h : Fin 27, ∀ c c' : Fin 81, Pattern.InHouse h c → Pattern.InHouse h c' →
    Pattern.posIn h c = Pattern.posIn h c' → c = c' := by decide +kernel

theorem posIn_lt : ∀ h : Fin 27, ∀ c : Fin 81, Pattern.posIn h c < 9 := by decide +kernel

/-- A set of three. -/
def three (a b c : Nat) : BitVec 16 := union (union (asSet 16 a) (asSet 16 b)) (asSet 16 c)

theorem has_three {a b c i : Nat} (ha : a < 9) (hb : b < 9) (hc : c < 9) : Pattern.Has (three a b c) i ↔ i = a ∨ i = b ∨ i = c := by
  unfold Pattern.Has three
  rw [mem_elems, bit_union, bit_union, Bool.or_eq_true, Bool.or_eq_true, bit_asSet (by omega), bit_asSet (by omega), bit_asSet (by omega)]
  constructor
  · rintro ((h | h) | h)
    · exact Or.inl h.symm
    · exact Or.inr (Or.inl h.symm)
    · exact Or.inr (Or.inr h.symm)
  · rintro (h | h | h)
    · exact Or.inl (Or.inl h.symm)
    · exact Or.inl (Or.inr h.symm)
    · exact Or.inr h.symm

theorem card_three {a b c : Nat} (ha : a < 9) (hb : b < 9) (hc : c < 9) (h1 : a ≠ b) (h2 : a ≠ c) (h3 : b ≠ c) :
    (elems (three a b c)).card = 3 := by
  have : elems (three a b c) = {a, b, c} := by
    ext i
    have := has_three (i := i) ha hb hc
    unfold Pattern.Has at this
    rw [this]
    simp
  rw [this]
  exact Finset.card_eq_three.mpr ⟨a, b, c, h1, h2, h3, rfl⟩

theorem lists_of (cand P : Fin 81 → Digit → Prop) {c : Fin 81} {d : Digit} (h : P c d) (h' : cand c d) :
    ∃ l, Pattern.Lists l cand P := by
  classical
  let l := ((List.finRange 81).flatMap (fun c => (List.finRange 9).map (fun d => (⟨c, d⟩ : Candidate)))).filter
    (fun e => P e.cell e.digit ∧ cand e.cell e.digit)
  have hm : ∀ c d, (⟨c, d⟩ : Candidate) ∈ l ↔ P c d ∧ cand c d := by
    intro c d
    simp only [l, List.mem_filter, List.mem_flatMap, List.mem_map, decide_eq_true_eq]
    constructor
    · exact fun h => h.2
    · exact fun h => ⟨⟨c, List.mem_finRange c, d, List.mem_finRange d, rfl⟩, h⟩
  refine ⟨l, ?_, hm⟩
  intro h0
  have := (hm c d).mpr ⟨h, h'⟩
  rw [h0] at this
  cases this

/-- If no naked triple is left: the digits of three cells of a house with three candidates together are not candidates of
other cells. -/
theorem no_triple {cand : Fin 81 → Digit → Prop} (hn : ∀ x, ¬ Pattern.Matches cand .nakedTriples x) {h : Nat} (hh : h < 27)
    {a b c e : Fin 81} (ha : Pattern.InHouse h a) (hb : Pattern.InHouse h b) (hc : Pattern.InHouse h c)
    (he : Pattern.InHouse h e) (h1 : a ≠ b) (h2 : a ≠ c) (h3 : b ≠ c) (e1 : e ≠ a) (e2 : e ≠ b) (e3 : e ≠ c)
    {x y z : Digit} (d1 : x ≠ y) (d2 : x ≠ z) (d3 : y ≠ z) (na : ∃ d, cand a d) (nb : ∃ d, cand b d) (nc : ∃ d, cand c d)
    (ca : ∀ d, cand a d → d = x ∨ d = y ∨ d = z) (cb : ∀ d, cand b d → d = x ∨ d = y ∨ d = z)
    (cc : ∀ d, cand c d → d = x ∨ d = y ∨ d = z) {d : Digit} (hd : d = x ∨ d = y ∨ d = z) : ¬ cand e d := by
  intro hcand
  have hp := posIn_inj ⟨h, hh⟩
  have hl := posIn_lt ⟨h, hh⟩
  dsimp only at hp hl
  have hpos : ∀ {i}, Pattern.Has (three (Pattern.posIn h a) (Pattern.posIn h b) (Pattern.posIn h c)) i ↔ _ :=
    fun {i} => has_three (i := i) (hl a) (hl b) (hl c)
  have hdig : ∀ {i}, Pattern.Has (three x.val y.val z.val) i ↔ _ := fun {i} => has_three (i := i) x.isLt y.isLt z.isLt
  have hdig' : ∀ {d : Digit}, (d = x ∨ d = y ∨ d = z) → Pattern.Has (three x.val y.val z.val) d.val := by
    rintro d (rfl | rfl | rfl)
    · exact hdig.mpr (Or.inl rfl)
    · exact hdig.mpr (Or.inr (Or.inl rfl))
    · exact hdig.mpr (Or.inr (Or.inr rfl))
  have hnot : ¬ Pattern.Has (three (Pattern.posIn h a) (Pattern.posIn h b) (Pattern.posIn h c)) (Pattern.posIn h e) := by
    intro h
    rcases hpos.mp h with h | h | h
    · exact e1 (hp _ _ he ha h)
    · exact e2 (hp _ _ he hb h)
    · exact e3 (hp _ _ he hc h)
  obtain ⟨l, hlist⟩ := lists_of cand (fun c' d => Pattern.InHouse h c' ∧
    ¬ Pattern.Has (three (Pattern.posIn h a) (Pattern.posIn h b) (Pattern.posIn h c)) (Pattern.posIn h c') ∧
    Pattern.Has (three x.val y.val z.val) d.val) (c := e) (d := d) ⟨he, hnot, hdig' hd⟩ hcand
  · refine hn (.subsets ⟨h, hh⟩ (three (Pattern.posIn h a) (Pattern.posIn h b) (Pattern.posIn h c)) (three x.val y.val z.val) l)
      ⟨?_, ?_, ?_, ?_, ?_, hlist⟩
    · exact card_three (hl a) (hl b) (hl c) (fun h => h1 (hp _ _ ha hb h)) (fun h => h2 (hp _ _ ha hc h)) (fun h => h3 (hp _ _ hb hc h))
    · exact card_three x.isLt y.isLt z.isLt (fun h => d1 (Fin.ext h)) (fun h => d2 (Fin.ext h)) (fun h => d3 (Fin.ext h))
    · intro p h
      rcases hpos.mp h with rfl | rfl | rfl
      · exact hl a
      · exact hl b
      · exact hl c
    · intro p h
      rcases hdig.mp h with rfl | rfl | rfl
      · exact x.isLt
      · exact y.isLt
      · exact z.isLt
    · intro c' hc' h
      rcases hpos.mp h with h | h | h
      · rw [hp _ _ hc' ha h]
        exact ⟨na, fun d hd => hdig' (ca d hd)⟩
      · rw [hp _ _ hc' hb h]
        exact ⟨nb, fun d hd => hdig' (cb d hd)⟩
      · rw [hp _ _ hc' hc h]
        exact ⟨nc, fun d hd => hdig' (cc d hd)⟩

/-- The miniline in a row or column and a block. -/
theorem mini_row : ∀ a : Fin 81, ∃ m : Fin 54, Pattern.miniLine m = rowOf a ∧ Pattern.miniBlock m = 18 + blockOf a := by
  decide +kernel
theorem mini_col : ∀ a : Fin 81, ∃ m : Fin 54, Pattern.miniLine m = 9 + colOf a ∧ Pattern.miniBlock m = 18 + blockOf a := by
  decide +kernel

/-- If no locked candidates are left: a digit confined to a block in a line is not a candidate elsewhere in the block, and
the other way round. -/
theorem no_locked {cand : Fin 81 → Digit → Prop} (hn : ∀ x, ¬ Pattern.Matches cand .lockedCandidates x) {m : Fin 54}
    {h1 h2 : Nat} (hh : (h1 = Pattern.miniLine m ∧ h2 = Pattern.miniBlock m) ∨ (h2 = Pattern.miniLine m ∧ h1 = Pattern.miniBlock m))
    {d : Digit} {a e : Fin 81} (ha : Pattern.InHouse h1 a) (hd : cand a d)
    (hall : ∀ c, Pattern.InHouse h1 c → cand c d → Pattern.InHouse h2 c) (he1 : ¬ Pattern.InHouse h1 e)
    (he2 : Pattern.InHouse h2 e) : ¬ cand e d := by
  intro hc
  obtain ⟨l, hl⟩ := lists_of cand (fun c d' => d' = d ∧ Pattern.InHouse h2 c ∧ ¬ Pattern.InHouse h1 c) (c := e) (d := d)
    ⟨rfl, he2, he1⟩ hc
  rcases hh with ⟨rfl, rfl⟩ | ⟨rfl, rfl⟩
  · refine hn (.lockedCandidates d m false l) ?_
    exact ⟨⟨a, ha, hd⟩, hall, hl⟩
  · refine hn (.lockedCandidates d m true l) ?_
    exact ⟨⟨a, ha, hd⟩, hall, hl⟩

/-- A fish with a line that has one candidate is a hidden single. -/
theorem fish_searched {cand : Fin 81 → Digit → Prop} (hn : ∀ x, ¬ Pattern.Matches cand .hiddenSingles x) {n : Nat}
    {digit : Digit} {lines : LineSet} {positions : PosSet} {l : List Candidate}
    (h : Pattern.BasicFish cand n digit lines positions l) : Searched cand (.basicFish digit lines positions l) := by
  obtain ⟨-, -, -, dir, hdir, h1, h2, -⟩ := h
  intro i hi
  obtain ⟨⟨c, hc, hd⟩, -⟩ := h2 i hi
  obtain ⟨h3, h4⟩ := h1 i hi
  by_contra hno
  have huniq : ∀ c', Pattern.InHouse i c' → (cand c' digit ↔ c' = c) := by
    intro c' hc'
    constructor
    · intro hcand
      by_contra hne
      exact hno ⟨c', c, hne, hc', hc, hcand, hd⟩
    · rintro rfl
      exact hd
  by_cases h9 : i < 9
  · exact hn (.hiddenSingles ⟨c, digit⟩ (.row ⟨i, h9⟩)) ⟨hc, huniq⟩
  · have h18 : i < 18 := by omega
    have e : Pattern.houseNr (.col ⟨i - 9, by omega⟩) = i := by
      show 9 + (i - 9) = i
      omega
    refine hn (.hiddenSingles ⟨c, digit⟩ (.col ⟨i - 9, by omega⟩)) ?_
    show Pattern.HiddenSingle _ _ _
    rw [e]
    exact ⟨hc, huniq⟩

theorem Common.house {a b c : Fin 81} (h : Common a b c) : ∃ i, i < 27 ∧ Pattern.InHouse i a ∧ Pattern.InHouse i b ∧ Pattern.InHouse i c := by
  rcases h with ⟨h1, h2⟩ | ⟨h1, h2⟩ | ⟨h1, h2⟩
  · exact ⟨rowOf a, by unfold rowOf; omega, inHouse_row.mpr rfl, inHouse_row.mpr h1.symm, inHouse_row.mpr h2.symm⟩
  · exact ⟨9 + colOf a, by unfold colOf; omega, inHouse_col.mpr rfl, inHouse_col.mpr h1.symm, inHouse_col.mpr h2.symm⟩
  · exact ⟨18 + blockOf a, by have := block_lt a; omega, inHouse_block.mpr rfl, inHouse_block.mpr h1.symm, inHouse_block.mpr h2.symm⟩

theorem house_of {i : Nat} (hi : i < 27) {a b : Fin 81} (ha : Pattern.InHouse i a) (hb : Pattern.InHouse i b) :
    (i < 9 ∧ i = rowOf a ∧ rowOf b = rowOf a) ∨ (i = 9 + colOf a ∧ colOf b = colOf a) ∨ (i = 18 + blockOf a ∧ blockOf b = blockOf a) := by
  unfold Pattern.InHouse at ha hb
  split at ha
  · rename_i h
    rw [if_pos h] at hb
    exact Or.inl ⟨h, ha.symm, by omega⟩
  · rename_i h
    rw [if_neg h] at hb
    split at ha
    · rename_i h'
      rw [if_pos h'] at hb
      exact Or.inr (Or.inl (by omega))
    · rename_i h'
      rw [if_neg h'] at hb
      exact Or.inr (Or.inr (by omega))

theorem sees_symm {a b : Fin 81} (h : Pattern.Sees a b) : Pattern.Sees b a := by
  refine ⟨h.1.symm, ?_⟩
  rcases h.2 with h | h | h
  · exact Or.inl h.symm
  · exact Or.inr (Or.inl h.symm)
  · exact Or.inr (Or.inr h.symm)

/-- Four cells that see each other are in one house. -/
theorem common4 {a b c e : Fin 81} (h1 : Pattern.Sees a b) (h2 : Pattern.Sees a c) (h3 : Pattern.Sees b c)
    (e1 : Pattern.Sees e a) (e2 : Pattern.Sees e b) (e3 : Pattern.Sees e c) :
    ∃ i, i < 27 ∧ Pattern.InHouse i a ∧ Pattern.InHouse i b ∧ Pattern.InHouse i c ∧ Pattern.InHouse i e := by
  have hab := common_of h1.2 h2.2 h3.2
  have hne1 := h1.1
  have hne2 := h2.1
  have hne3 := h3.1
  have f1 := e1.2
  have f2 := e2.2
  have f3 := e3.2
  have g1 := e1.1
  have g2 := e2.1
  have g3 := e3.1
  have key : (rowOf e = rowOf a ∧ rowOf b = rowOf a ∧ rowOf c = rowOf a) ∨ (colOf e = colOf a ∧ colOf b = colOf a ∧ colOf c = colOf a) ∨
      (blockOf e = blockOf a ∧ blockOf b = blockOf a ∧ blockOf c = blockOf a) := by
    unfold SameHouse at f1 f2 f3
    unfold Common at hab
    simp only [block_eq_iff] at *
    have hne : ∀ {x y : Fin 81}, x ≠ y → rowOf x = rowOf y → colOf x ≠ colOf y := by
      intro x y h h1 h2
      apply h
      unfold rowOf colOf at *
      omega
    replace hne1 := hne hne1
    replace hne2 := hne hne2
    replace hne3 := hne hne3
    replace g1 := hne g1
    replace g2 := hne g2
    replace g3 := hne g3
    clear hne e1 e2 e3 h1 h2 h3
    rcases hab with hab | hab | hab <;> rcases f1 with f1 | f1 | f1 <;> rcases f2 with f2 | f2 | f2 <;>
      rcases f3 with f3 | f3 | f3 <;> grind
  rcases key with ⟨k1, k2, k3⟩ | ⟨k1, k2, k3⟩ | ⟨k1, k2, k3⟩
  · exact ⟨rowOf a, by unfold rowOf; omega, inHouse_row.mpr rfl, inHouse_row.mpr k2, inHouse_row.mpr k3, inHouse_row.mpr k1⟩
  · exact ⟨9 + colOf a, by unfold colOf; omega, inHouse_col.mpr rfl, inHouse_col.mpr k2, inHouse_col.mpr k3, inHouse_col.mpr k1⟩
  · exact ⟨18 + blockOf a, by have := block_lt a; omega, inHouse_block.mpr rfl, inHouse_block.mpr k2, inHouse_block.mpr k3, inHouse_block.mpr k1⟩

/-- The pincers of a wing do not see each other if no naked triples and, for an XY-wing, no locked candidates are left. -/
theorem wing_searched {cand : Fin 81 → Digit → Prop} (hn : ∀ x, ¬ Pattern.Matches cand .nakedTriples x) {withZ : Bool}
    (hk : withZ = false → ∀ x, ¬ Pattern.Matches cand .lockedCandidates x)
    {hinge : Fin 81} {hd : DigitSet} {pincers : Pos.Cells} {l : List Candidate}
    (h : Pattern.Wing cand withZ hinge hd pincers l) : Searched cand (.wing hinge hd pincers l) := by
  obtain ⟨p1, p2, x, y, z, hne, hp, s1, s2, d1, d2, d3, c1, c2, c3, -, hl0, hl⟩ := h
  have key : ¬ Pattern.Sees p1 p2 := by
    intro s3
    obtain ⟨⟨e, ed⟩, hel⟩ := List.exists_mem_of_ne_nil l hl0
    obtain ⟨⟨rfl, es1, es2, esh⟩, hcand⟩ := (hl e ed).mp hel
    have ca : ∀ d, cand hinge d → d = x ∨ d = y ∨ d = ed := by
      intro d h
      rcases (c3 d).mp h with h | h | h
      · exact Or.inl h
      · exact Or.inr (Or.inl h)
      · exact Or.inr (Or.inr h.2)
    have cb : ∀ d, cand p1 d → d = x ∨ d = y ∨ d = ed := by
      intro d h
      rcases (c1 d).mp h with h | h
      · exact Or.inl h
      · exact Or.inr (Or.inr h)
    have cc : ∀ d, cand p2 d → d = x ∨ d = y ∨ d = ed := by
      intro d h
      rcases (c2 d).mp h with h | h
      · exact Or.inr (Or.inl h)
      · exact Or.inr (Or.inr h)
    have none : ∀ {i : Nat}, i < 27 → Pattern.InHouse i hinge → Pattern.InHouse i p1 → Pattern.InHouse i p2 →
        ∀ e', Pattern.InHouse i e' → e' ≠ hinge → e' ≠ p1 → e' ≠ p2 → ¬ cand e' ed := by
      intro i hi i1 i2 i3 e' i4 n1 n2 n3
      exact no_triple hn hi i1 i2 i3 i4 s1.1 s2.1 hne n1 n2 n3 d1 d2 d3 ⟨x, (c3 x).mpr (Or.inl rfl)⟩ ⟨x, (c1 x).mpr (Or.inl rfl)⟩
        ⟨y, (c2 y).mpr (Or.inl rfl)⟩ ca cb cc (Or.inr (Or.inr rfl))
    cases withZ with
    | true =>
      obtain ⟨i, hi, i1, i2, i3, i4⟩ := common4 s1 s2 s3 (esh rfl) es1 es2
      exact none hi i1 i2 i3 e i4 (esh rfl).1 es1.1 es2.1 hcand
    | false =>
      have hz : ¬ cand hinge ed := by
        intro h
        rcases (c3 ed).mp h with h | h | h
        · exact d2 h.symm
        · exact d3 h.symm
        · cases h.1
      have hne' : e ≠ hinge := by
        rintro rfl
        exact hz hcand
      obtain ⟨i, hi, i1, i2, i3⟩ := (common_of s1.2 s2.2 s3.2).house
      obtain ⟨j, hj, j1, j2, j3⟩ := (common_of es1.2 es2.2 s3.2).house
      by_cases hei : Pattern.InHouse i e
      · exact none hi i1 i2 i3 e hei hne' es1.1 es2.1 hcand
      · -- in the house `i`, `z` is only in the pincers, and these are also in the house `j`
        have hmini : ∃ m : Fin 54, (i = Pattern.miniLine m ∧ j = Pattern.miniBlock m) ∨
            (j = Pattern.miniLine m ∧ i = Pattern.miniBlock m) := by
          have hij : i ≠ j := by
            rintro rfl
            exact hei j1
          have hne0 : p1.val ≠ p2.val := fun h => hne (Fin.ext h)
          rcases house_of hi i2 i3 with ⟨-, a1, a2⟩ | ⟨a1, a2⟩ | ⟨a1, a2⟩ <;>
            rcases house_of hj j2 j3 with ⟨-, b1, b2⟩ | ⟨b1, b2⟩ | ⟨b1, b2⟩
          · omega
          · exfalso
            unfold rowOf colOf at *
            omega
          · obtain ⟨m, m1, m2⟩ := mini_row p1
            exact ⟨m, Or.inl ⟨by omega, by omega⟩⟩
          · exfalso
            unfold rowOf colOf at *
            omega
          · omega
          · obtain ⟨m, m1, m2⟩ := mini_col p1
            exact ⟨m, Or.inl ⟨by omega, by omega⟩⟩
          · obtain ⟨m, m1, m2⟩ := mini_row p1
            exact ⟨m, Or.inr ⟨by omega, by omega⟩⟩
          · obtain ⟨m, m1, m2⟩ := mini_col p1
            exact ⟨m, Or.inr ⟨by omega, by omega⟩⟩
          · omega
        obtain ⟨m, hm⟩ := hmini
        refine no_locked (hk rfl) hm i2 ((c1 ed).mpr (Or.inr rfl)) ?_ hei j1 hcand
        intro c hc hcd
        by_cases n1 : c = p1
        · rw [n1]; exact j2
        by_cases n2 : c = p2
        · rw [n2]; exact j3
        by_cases n3 : c = hinge
        · rw [n3] at hcd
          exact absurd hcd hz
        exact absurd hcd (none hi i1 i2 i3 c hc n3 n1 n2)
  intro c c' hc hc' hs
  rcases (hp c.val).mp hc with h1 | h1 <;> rcases (hp c'.val).mp hc' with h2 | h2
  · exact hs.1 (Fin.ext (by omega))
  · rw [Fin.ext h1, Fin.ext h2] at hs
    exact key hs
  · rw [Fin.ext h1, Fin.ext h2] at hs
    exact key (sees_symm hs)
  · exact hs.1 (Fin.ext (by omega))

end Verif.Strat
