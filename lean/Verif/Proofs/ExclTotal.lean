import Verif.Proofs.ExclRegion
import Verif.Proofs.StratResult
import Verif.Proofs.StratFresh

/-! # The strategy solver: a bound for the number of exclusions of a sudoku with a solution -/
namespace Verif.Strat

open Bitset Generator

variable {t : Grid} {F : Fin 81 → Prop} {P : Fin 81 → Digit → Prop}

/-! ## Wings -/

def WingPair (t : Grid) (withZ : Bool) (x : Key × Candidate) : Prop :=
  if withZ then ∃ h : Fin 81, ∃ q ∈ xyzTriples h, ∃ i : Fin 3, x = ((h.val, 0, {q.1.val, q.2.1.val}),
    ⟨q.2.2, if i = 0 then dig t q.1 else if i = 1 then dig t q.2.1 else dig t h⟩)
  else ∃ h : Fin 81, ∃ q ∈ xyTriples h, ∃ i : Fin 2, x = ((h.val, 0, {q.1.val, q.2.1.val}),
    ⟨q.2.2, if i = 0 then dig t q.1 else dig t q.2.1⟩)

/-- The pincers come from these areas. -/
def wingAreasOf (withZ : Bool) (h : Fin 81) : List (Pos.Cells × Pos.Cells) :=
  if withZ then [(wingAreas h).1, (wingAreas h).2.1] else [(wingAreas h).1, (wingAreas h).2.1, (wingAreas h).2.2]

theorem area_apart {h p q : Fin 81} {a : Pos.Cells × Pos.Cells}
    (ha : a ∈ [(wingAreas h).1, (wingAreas h).2.1, (wingAreas h).2.2]) (hp : a.1.getLsbD p.val = true)
    (hq : a.2.getLsbD q.val = true) : ¬ SameHouse p q := by
  obtain ⟨a1, a2, a3, a4, a5, a6⟩ := areas_bits h p
  obtain ⟨b1, b2, b3, b4, b5, b6⟩ := areas_bits h q
  have hp9 : colOf p < 9 := Nat.mod_lt p.val (show 0 < 9 by omega)
  have hq9 : colOf q < 9 := Nat.mod_lt q.val (show 0 < 9 by omega)
  have hh9 : colOf h < 9 := Nat.mod_lt h.val (show 0 < 9 by omega)
  simp only [List.mem_cons, List.not_mem_nil, or_false] at ha
  rcases ha with rfl | rfl | rfl
  · obtain ⟨r1, r2⟩ := a1.mp hp
    obtain ⟨r3, r4⟩ := b2.mp hq
    unfold blockOf at r1 r4
    unfold SameHouse blockOf
    rintro (e | e | e) <;> omega
  · obtain ⟨r1, r2⟩ := a3.mp hp
    obtain ⟨r3, r4⟩ := b4.mp hq
    unfold blockOf at r1 r4
    unfold SameHouse blockOf
    rintro (e | e | e) <;> omega
  · obtain ⟨r1, r2⟩ := a5.mp hp
    obtain ⟨r3, r4⟩ := b6.mp hq
    unfold blockOf at r2 r4
    unfold SameHouse blockOf
    rintro (e | e | e) <;> omega

theorem wing_pair (ht : Solved t) (hP : Live t F P) {withZ : Bool} {hinge : Fin 81} {hd : DigitSet} {pincers : Pos.Cells}
    {l : List Candidate} (hs : Pattern.Wing P withZ hinge hd pincers l) {h : Fin 81} {a : Pos.Cells × Pos.Cells}
    (ha : a ∈ wingAreasOf withZ h) (hk : WingKey h a (hinge.val, 0, elems pincers)) :
    ∀ e ∈ l, WingPair t withZ ((hinge.val, 0, elems pincers), e) := by
  obtain ⟨p1, p2, x, y, z, n1, n2, s1, s2, hxy, hxz, hyz, c1, c2, ch, -, -, hl⟩ := hs
  obtain ⟨q1, q2, k1, k2, k3⟩ := hk
  have hh : h = hinge := Fin.ext (congrArg Prod.fst k3).symm
  subst hh
  have hpin : elems pincers = {q1.val, q2.val} := kk_inj _ _ k3
  have ha3 : a ∈ [(wingAreas h).1, (wingAreas h).2.1, (wingAreas h).2.2] := by
    unfold wingAreasOf at ha
    split at ha
    · simp only [List.mem_cons, List.not_mem_nil, or_false] at ha ⊢
      rcases ha with rfl | rfl
      · exact Or.inl rfl
      · exact Or.inr (Or.inl rfl)
    · exact ha
  have hpp : ({p1.val, p2.val} : Finset Nat) = {q1.val, q2.val} := by
    rw [← hpin]
    ext i
    rw [Finset.mem_insert, Finset.mem_singleton]
    exact (n2 i).symm
  -- the digits of the cells
  have d1 := (c1 _).mp (hP.own p1 (hP.empty p1 z ((c1 z).mpr (Or.inr rfl))))
  have d2 := (c2 _).mp (hP.own p2 (hP.empty p2 z ((c2 z).mpr (Or.inr rfl))))
  have dh := (ch _).mp (hP.own h (hP.empty h x ((ch x).mpr (Or.inl rfl))))
  have ne1 : dig t h ≠ dig t p1 := fun e => s1.1 (dig_unique ht s1.2 e)
  have ne2 : dig t h ≠ dig t p2 := fun e => s2.1 (dig_unique ht s2.2 e)
  have hz : z = dig t p1 ∨ z = dig t p2 ∨ (withZ = true ∧ z = dig t h) := by
    rcases d1 with d1 | d1
    · rcases d2 with d2 | d2
      · rcases dh with dh | dh | ⟨w, dh⟩
        · exact absurd (dh.trans d1.symm) ne1
        · exact absurd (dh.trans d2.symm) ne2
        · exact Or.inr (Or.inr ⟨w, dh.symm⟩)
      · exact Or.inr (Or.inl d2.symm)
    · exact Or.inl d1.symm
  -- and for the cells in the areas
  have hsw : (q1 = p1 ∧ q2 = p2) ∨ (q1 = p2 ∧ q2 = p1) := by
    rcases pair_eq hpp with ⟨a, b⟩ | ⟨a, b⟩
    · exact Or.inl ⟨Fin.ext a.symm, Fin.ext b.symm⟩
    · exact Or.inr ⟨Fin.ext b.symm, Fin.ext a.symm⟩
  have hz : z = dig t q1 ∨ z = dig t q2 ∨ (withZ = true ∧ z = dig t h) := by
    rcases hsw with ⟨rfl, rfl⟩ | ⟨rfl, rfl⟩
    · exact hz
    · rcases hz with hz | hz | hz
      · exact Or.inr (Or.inl hz)
      · exact Or.inl hz
      · exact Or.inr (Or.inr hz)
  rintro ⟨c, d⟩ he
  obtain ⟨⟨g1, g2, g3, g4⟩, hcd⟩ := (hl c d).mp he
  have g1 : d = z := g1
  subst g1
  have hc : c ∈ commons q1 q2 := by
    refine mem_commons ?_ ?_ (area_apart ha3 k1 k2)
    · rcases hsw with ⟨rfl, rfl⟩ | ⟨rfl, rfl⟩
      · exact g2.2
      · exact g3.2
    · rcases hsw with ⟨rfl, rfl⟩ | ⟨rfl, rfl⟩
      · exact g3.2
      · exact g2.2
  unfold WingPair
  cases withZ with
  | true =>
    have g4 := g4 rfl
    rw [if_pos rfl]
    have hm : (q1, q2, c) ∈ xyzTriples h := mem_triples ha k1 k2 hc (by
      rw [Bool.and_eq_true, decide_eq_true_eq, bne_iff_ne]
      exact ⟨g4.1, g4.2⟩)
    rw [hpin]
    rcases hz with hz | hz | ⟨-, hz⟩
    · exact ⟨h, _, hm, 0, by rw [hz]; rfl⟩
    · exact ⟨h, _, hm, 1, by rw [hz]; rfl⟩
    · exact ⟨h, _, hm, 2, by rw [hz]; rfl⟩
  | false =>
    rw [if_neg (by decide)]
    have hne : c ≠ h := by
      rintro rfl
      rcases (ch d).mp hcd with e | e | e
      · exact hxz e.symm
      · exact hyz e.symm
      · exact absurd e.1 (by decide)
    have hm : (q1, q2, c) ∈ xyTriples h := mem_triples ha k1 k2 hc (by rw [bne_iff_ne]; exact hne)
    rw [hpin]
    rcases hz with hz | hz | ⟨hz, -⟩
    · exact ⟨h, _, hm, 0, by rw [hz]; rfl⟩
    · exact ⟨h, _, hm, 1, by rw [hz]; rfl⟩
    · exact absurd hz (by decide)

theorem wingPair_card {withZ : Bool} {T : Finset (Key × Candidate)} (h : ∀ x ∈ T, WingPair t withZ x) : T.card ≤ 64152 := by
  cases withZ with
  | true =>
    refine (wing_card xyzTriples_length (k := 3)
      (fun h q i => if i = 0 then dig t q.1 else if i = 1 then dig t q.2.1 else dig t h) fun x hx => ?_).trans (by omega)
    have := h x hx
    unfold WingPair at this
    rwa [if_pos rfl] at this
  | false =>
    refine (wing_card xyTriples_length (k := 2)
      (fun _ q i => if i = 0 then dig t q.1 else dig t q.2.1) fun x hx => ?_).trans (by omega)
    have := h x hx
    unfold WingPair at this
    rwa [if_neg (by decide)] at this

/-! ## All strategies -/

def hidOf : Strategy → Bool
  | .hiddenPairs | .hiddenTriples | .hiddenQuads => true
  | _ => false

def keysOf : Strategy → Key → Prop
  | .xyWing => fun k => ∃ hinge : Fin 81, ∃ a ∈ wingAreasOf false hinge, WingKey hinge a k
  | .xyzWing => fun k => ∃ hinge : Fin 81, ∃ a ∈ wingAreasOf true hinge, WingKey hinge a k
  | _ => fun _ => True

/-- The pairs of a pattern and an excluded candidate found so far by a strategy. -/
def Account (ht : Solved t) (P : Fin 81 → Digit → Prop) (T : Finset (Key × Candidate)) : Strategy → Prop
  | .nakedPairs => Tally (nakedCoding ht) 2 P T
  | .nakedTriples => Tally (nakedCoding ht) 3 P T
  | .nakedQuads => Tally (nakedCoding ht) 4 P T
  | .hiddenPairs => Tally (hiddenCoding ht) 2 P T
  | .hiddenTriples => Tally (hiddenCoding ht) 3 P T
  | .hiddenQuads => Tally (hiddenCoding ht) 4 P T
  | .xWing => ∀ x ∈ T, FishPair t 2 x
  | .swordfish => ∀ x ∈ T, FishPair t 3 x
  | .jellyfish => ∀ x ∈ T, FishPair t 4 x
  | .lockedCandidates => ∀ x ∈ T, LockedPair x
  | .xyWing => ∀ x ∈ T, WingPair t false x
  | .xyzWing => ∀ x ∈ T, WingPair t true x
  | _ => T = ∅

theorem Account.empty (ht : Solved t) (P : Fin 81 → Digit → Prop) (st : Strategy) : Account ht P ∅ st := by
  cases st <;> first | exact Tally.empty _ _ _ | exact fun x hx => absurd hx (Finset.notMem_empty x) | rfl

theorem Account.mono {ht : Solved t} {Q : Fin 81 → Digit → Prop} {T : Finset (Key × Candidate)} {st : Strategy}
    (h : Account ht P T st) (hq : ∀ c d, Q c d → P c d) : Account ht Q T st := by
  cases st <;> first | exact Tally.mono h hq | exact h

theorem Account.card {ht : Solved t} {T : Finset (Key × Candidate)} {st : Strategy} (h : Account ht P T st) :
    T.card ≤ 64665 := by
  cases st
  case nakedPairs => exact (Tally.card (by omega) (by omega) h).trans (by decide)
  case nakedTriples => exact (Tally.card (by omega) (by omega) h).trans (by decide)
  case nakedQuads => exact (Tally.card (by omega) (by omega) h).trans (by decide)
  case hiddenPairs => exact (Tally.card (by omega) (by omega) h).trans (by decide)
  case hiddenTriples => exact (Tally.card (by omega) (by omega) h).trans (by decide)
  case hiddenQuads => exact (Tally.card (by omega) (by omega) h).trans (by decide)
  case xWing => exact (fish_card (by omega) h).trans (by decide)
  case swordfish => exact (fish_card (by omega) h).trans (by decide)
  case jellyfish => exact (fish_card (by omega) h).trans (by decide)
  case lockedCandidates => exact (locked_card h).trans (by omega)
  case xyWing => exact (wingPair_card h).trans (by omega)
  case xyzWing => exact (wingPair_card h).trans (by omega)
  all_goals
    have h : T = ∅ := h
    rw [h]
    exact Nat.zero_le _

/-- The pairs are patterns of the strategy with excluded candidates. -/
def Fired (P : Fin 81 → Digit → Prop) (st : Strategy) (N : Finset (Key × Candidate)) : Prop :=
  ∀ x ∈ N, ∃ d, Pattern.Matches P st d ∧ key (hidOf st) d = x.1 ∧ keysOf st x.1 ∧ x.2 ∈ Pattern.removed d

theorem Account.union {ht : Solved t} (hP : Live t F P) {T N : Finset (Key × Candidate)} {st : Strategy}
    (h : Account ht P T st) (hN : Fired P st N) : Account ht P (T ∪ N) st := by
  have naked : ∀ n, Tally (nakedCoding ht) n P T → (∀ x ∈ N, ∃ h ps ds l, Pattern.NakedSubset P n (h : Fin 27) ps ds l ∧
      (h.val, 0, elems ps) = x.1 ∧ x.2 ∈ l) → Tally (nakedCoding ht) n P (T ∪ N) := by
    intro n hT hx
    refine hT.union fun x hxN => ?_
    obtain ⟨h, ps, ds, l, h1, h2, h3⟩ := hx x hxN
    obtain ⟨k1, k2⟩ := naked_here ht hP h1
    obtain ⟨k3, k4, k5, k6⟩ := k2 x.2 h3
    rw [← h2]
    exact ⟨h, rfl, rfl, k1, k3, k4, k5, k6⟩
  have hidden : ∀ n, Tally (hiddenCoding ht) n P T → (∀ x ∈ N, ∃ h ps ds l, Pattern.HiddenSubset P n (h : Fin 27) ps ds l ∧
      (h.val, 0, elems ds) = x.1 ∧ x.2 ∈ l) → Tally (hiddenCoding ht) n P (T ∪ N) := by
    intro n hT hx
    refine hT.union fun x hxN => ?_
    obtain ⟨h, ps, ds, l, h1, h2, h3⟩ := hx x hxN
    obtain ⟨k1, k2⟩ := hidden_here ht hP h1
    obtain ⟨k3, k4, k5, k6⟩ := k2 x.2 h3
    rw [← h2]
    exact ⟨h, rfl, rfl, k1, k3, k4, k5, k6⟩
  have all : ∀ {R : Key × Candidate → Prop}, (∀ x ∈ T, R x) → (∀ x ∈ N, R x) → ∀ x ∈ T ∪ N, R x := by
    intro R h1 h2 x hx
    rcases Finset.mem_union.mp hx with hx | hx
    · exact h1 x hx
    · exact h2 x hx
  have none : (∀ d, Pattern.Matches P st d → Pattern.removed d = []) → T = ∅ → T ∪ N = ∅ := by
    intro h1 h2
    rw [h2, Finset.empty_union, Finset.eq_empty_iff_forall_notMem]
    intro x hx
    obtain ⟨d, hd, -, -, hm⟩ := hN x hx
    rw [h1 d hd] at hm
    cases hm
  have sub : ∀ {st' : Strategy} {n : Nat}, st = st' → hidOf st = false →
      (∀ d, Pattern.Matches P st d → ∃ h ps ds l, d = .subsets h ps ds l ∧ Pattern.NakedSubset P n (h : Fin 27) ps ds l) →
      ∀ x ∈ N, ∃ h ps ds l, Pattern.NakedSubset P n (h : Fin 27) ps ds l ∧ (h.val, 0, elems ps) = x.1 ∧ x.2 ∈ l := by
    intro st' n _ hid hm x hx
    obtain ⟨d, h1, h2, -, h4⟩ := hN x hx
    obtain ⟨h, ps, ds, l, rfl, h5⟩ := hm d h1
    rw [hid] at h2
    exact ⟨h, ps, ds, l, h5, h2, h4⟩
  have subh : ∀ {n : Nat}, hidOf st = true →
      (∀ d, Pattern.Matches P st d → ∃ h ps ds l, d = .subsets h ps ds l ∧ Pattern.HiddenSubset P n (h : Fin 27) ps ds l) →
      ∀ x ∈ N, ∃ h ps ds l, Pattern.HiddenSubset P n (h : Fin 27) ps ds l ∧ (h.val, 0, elems ds) = x.1 ∧ x.2 ∈ l := by
    intro n hid hm x hx
    obtain ⟨d, h1, h2, -, h4⟩ := hN x hx
    obtain ⟨h, ps, ds, l, rfl, h5⟩ := hm d h1
    rw [hid] at h2
    exact ⟨h, ps, ds, l, h5, h2, h4⟩
  have fish : ∀ {n : Nat}, (∀ d, Pattern.Matches P st d → ∃ digit ls ps l, d = .basicFish digit ls ps l ∧
      Pattern.BasicFish P n digit ls ps l) → ∀ x ∈ N, FishPair t n x := by
    intro n hm x hx
    obtain ⟨d, h1, h2, -, h4⟩ := hN x hx
    obtain ⟨digit, ls, ps, l, rfl, h5⟩ := hm d h1
    have := fish_pair ht hP h5 x.2 h4
    have h2 : (digit.val, 0, elems ls) = x.1 := h2
    rwa [h2] at this
  cases st
  case nakedPairs =>
    exact naked 2 h (sub rfl rfl fun d hd => by cases d <;> first | exact ⟨_, _, _, _, rfl, hd⟩ | exact hd.elim)
  case nakedTriples =>
    exact naked 3 h (sub rfl rfl fun d hd => by cases d <;> first | exact ⟨_, _, _, _, rfl, hd⟩ | exact hd.elim)
  case nakedQuads =>
    exact naked 4 h (sub rfl rfl fun d hd => by cases d <;> first | exact ⟨_, _, _, _, rfl, hd⟩ | exact hd.elim)
  case hiddenPairs =>
    exact hidden 2 h (subh rfl fun d hd => by cases d <;> first | exact ⟨_, _, _, _, rfl, hd⟩ | exact hd.elim)
  case hiddenTriples =>
    exact hidden 3 h (subh rfl fun d hd => by cases d <;> first | exact ⟨_, _, _, _, rfl, hd⟩ | exact hd.elim)
  case hiddenQuads =>
    exact hidden 4 h (subh rfl fun d hd => by cases d <;> first | exact ⟨_, _, _, _, rfl, hd⟩ | exact hd.elim)
  case xWing => exact all h (fish fun d hd => by cases d <;> first | exact ⟨_, _, _, _, rfl, hd⟩ | exact hd.elim)
  case swordfish => exact all h (fish fun d hd => by cases d <;> first | exact ⟨_, _, _, _, rfl, hd⟩ | exact hd.elim)
  case jellyfish => exact all h (fish fun d hd => by cases d <;> first | exact ⟨_, _, _, _, rfl, hd⟩ | exact hd.elim)
  case lockedCandidates =>
    refine all h fun x hx => ?_
    obtain ⟨d, h1, h2, -, h4⟩ := hN x hx
    cases d <;> first | exact h1.elim | skip
    rename_i digit m isP l
    have := locked_pair h1 x.2 h4
    have h2 : (digit.val, 2 * m.val + isP.toNat, ∅) = x.1 := h2
    rwa [h2] at this
  case xyWing =>
    refine all h fun x hx => ?_
    obtain ⟨d, h1, h2, ⟨hinge, a, ha, hk⟩, h4⟩ := hN x hx
    cases d <;> first | exact h1.elim | skip
    rename_i hg hd ps l
    have h2 : (hg.val, 0, elems ps) = x.1 := h2
    rw [← h2] at hk
    have := wing_pair ht hP (withZ := false) h1 ha hk x.2 h4
    rwa [h2] at this
  case xyzWing =>
    refine all h fun x hx => ?_
    obtain ⟨d, h1, h2, ⟨hinge, a, ha, hk⟩, h4⟩ := hN x hx
    cases d <;> first | exact h1.elim | skip
    rename_i hg hd ps l
    have h2 : (hg.val, 0, elems ps) = x.1 := h2
    rw [← h2] at hk
    have := wing_pair ht hP (withZ := true) h1 ha hk x.2 h4
    rwa [h2] at this
  all_goals exact none (fun d hd => by cases d <;> first | exact hd.elim | rfl) h

/-! ## One pass -/

theorem key_slices {hid : Bool} {d : RangeDeduction} {elim : List Candidate} {x : Deduction (List Candidate)}
    (h : withSlices d elim = .ok x) : key hid x = key hid d := by
  have step : ∀ (rg : Nat × Nat) (f : List Candidate → Deduction (List Candidate)),
      (slice elim rg >>= fun l => Res.ok (f l)) = .ok x → ∃ l, x = f l := by
    intro rg f hf
    obtain ⟨l, _, h2⟩ := bind_ok hf
    cases h2
    exact ⟨l, rfl⟩
  cases d with
  | nakedSingles c => cases h; rfl
  | hiddenSingles c y => cases h; rfl
  | avoidableRectangle l c => cases h
  | lockedCandidates a b c rg =>
    obtain ⟨l, rfl⟩ := step rg (fun l => .lockedCandidates a b c l) h
    rfl
  | subsets a b c rg =>
    obtain ⟨l, rfl⟩ := step rg (fun l => .subsets a b c l) h
    rfl
  | basicFish a b c rg =>
    obtain ⟨l, rfl⟩ := step rg (fun l => .basicFish a b c l) h
    rfl
  | fish a b c rg =>
    obtain ⟨l, rfl⟩ := step rg (fun l => .fish a b c l) h
    rfl
  | wing a b c rg =>
    obtain ⟨l, rfl⟩ := step rg (fun l => .wing a b c l) h
    rfl

/-- The candidates of a settled state go with the solution. -/
theorem Settled.live {s : Solver} {g : Grid} (h : Settled s g) (ht : Solved t) (ha : Agree t s) :
    Live t (fun c => ∃ e ∈ s.deduced, e.cell = c) (Cands s.cp) := by
  have hd : ∀ e ∈ s.deduced, dig t e.cell = e.digit := fun e he =>
    Digit.get_inj ((dig_spec ht _).symm.trans (ha.ded e he))
  rw [h.cands ht ha]
  refine ⟨?_, fun c hc => ⟨?_, fun e he => ⟨fun h1 => hc ⟨e, he, h1⟩, ?_⟩⟩, ?_⟩
  · rintro c d hP ⟨e, he, rfl⟩
    exact (hP.2 e he).1 rfl
  · rintro e he ⟨rfl, h2⟩
    exact ha.elim e he (by rw [h2]; exact dig_spec ht _)
  · rintro ⟨hdd, hs⟩
    have hne : e.cell ≠ c := fun h1 => hc ⟨e, he, h1⟩
    exact hne (dig_unique ht hs (by rw [hd e he, hdd]))
  · rintro c c' d ⟨e, he, rfl⟩ hs hP hdd
    exact (hP.2 e he).2 ⟨by rw [← hdd, hd e he], hs⟩

/-- What one pass adds. -/
def Booked (t : Grid) (st : Strategy) (s s' : Solver) : Prop :=
  ∃ (news : List Candidate) (N : Finset (Key × Candidate)), s'.eliminated = s.eliminated ++ news ∧ news.length ≤ N.card ∧
    (∀ x ∈ N, x.2 ∈ news ∧ x.2 ∉ s.eliminated) ∧
    (N = ∅ ∨ (∃ F, Live t F (Cands s'.cp)) ∧ Fired (Cands s'.cp) st N) ∧
    ∃ ds, s'.deductions = s.deductions ++ ds ∧ Ranges s.eliminated.length s'.eliminated.length ds

/-- No candidates were excluded. -/
abbrev NoExcl (s s' : Solver) : Prop :=
  s'.eliminated = s.eliminated ∧ ∃ ds, s'.deductions = s.deductions ++ ds ∧ Ranges s.eliminated.length s'.eliminated.length ds

theorem NoExcl.of_update {fuel : Nat} (hf : 1000 ≤ fuel) {s : Solver} (h : W 0 s) {r : Solver × Bool}
    (he : s.update fuel false true = .ok r) : NoExcl s r.1 := by
  have hg : Grow true False (fun _ => False) s r.1 := update_grow (by omega) hf false true h he (fun hh => hh.elim)
  obtain ⟨ds, h1, -, -, -, h2⟩ := hg
  exact ⟨update_elim (by omega) hf false true h he, ds, h1, (h2 rfl).1⟩

theorem NoExcl.of_eq {s s' : Solver} (h : s'.eliminated = s.eliminated) (h' : s'.deductions = s.deductions) : NoExcl s s' :=
  ⟨h, [], by simp [h'], Ranges.nil (by rw [h])⟩

theorem NoExcl.trans {s s1 s2 : Solver} (h : NoExcl s1 s2) (h' : NoExcl s s1) : NoExcl s s2 := by
  obtain ⟨a1, ds, a2, a3⟩ := h
  obtain ⟨b1, ds', b2, b3⟩ := h'
  exact ⟨a1.trans b1, ds' ++ ds, by rw [a2, b2, List.append_assoc], b3.append a3⟩

theorem Booked.none {st : Strategy} {s s' : Solver} (h : NoExcl s s') : Booked t st s s' :=
  ⟨[], ∅, by simp [h.1], Nat.zero_le _, fun x hx => absurd hx (Finset.notMem_empty x), Or.inl rfl, h.2⟩

theorem Booked.after {st : Strategy} {s s1 s2 : Solver} (h : Booked t st s1 s2) (h1 : NoExcl s s1) :
    Booked t st s s2 := by
  obtain ⟨news, N, a1, a2, a3, a4, ds, a5, a6⟩ := h
  obtain ⟨h1, ds', h2, h3⟩ := h1
  refine ⟨news, N, by rw [a1, h1], a2, by rw [← h1]; exact a3, a4, ds' ++ ds, by rw [a5, h2, List.append_assoc], h3.append a6⟩

theorem search_pass (ht : Solved t) {st : Strategy} {s : Solver} {g : Grid} (h : Settled s g) (ha : Agree t s)
    (hc : usesHp st = true → HpCurrent s) {f : Solver → Res (Solver × Bool)} (hf : AddsBy (hidOf st) (keysOf st) f)
    {r : Solver × Bool} (he : f s = .ok r) (hx : Ext (NewElim s) (DedOf st s.cp s.hp) s r.1) : Booked t st s r.1 := by
  classical
  obtain ⟨L, l1, l2, l3, l5, l4⟩ := hf s r he
  obtain ⟨news, ds, e, hb⟩ := hx
  have e1 : r.1.eliminated = s.eliminated ++ news := by rw [e]; rfl
  have e2 : r.1.deductions = s.deductions ++ ds := by rw [e]; rfl
  have e3 : r.1.cp = s.cp := by rw [e]; rfl
  have hnews : L.flatMap Prod.snd = news := List.append_cancel_left (l2.symm.trans e1)
  have hds : L.map Prod.fst = ds := List.append_cancel_left (l1.symm.trans e2)
  let pairs : List (Key × Candidate) := L.flatMap fun x => x.2.map fun c => (key (hidOf st) x.1, c)
  have hlen : pairs.length = news.length := by
    rw [← hnews, List.length_flatMap, List.length_flatMap]
    congr 1
    exact List.map_congr_left fun x _ => List.length_map _
  have hnd : pairs.Nodup := by
    rw [List.nodup_flatMap]
    refine ⟨fun x hx => (l4 x hx).2.1.map fun a b hab => congrArg Prod.snd hab, ?_⟩
    have := List.pairwise_map.mp (List.nodup_iff_pairwise_ne.mp l3)
    refine this.imp ?_
    intro x y hne a h1 h2
    obtain ⟨c1, _, rfl⟩ := List.mem_map.mp h1
    obtain ⟨c2, _, h3⟩ := List.mem_map.mp h2
    exact hne (congrArg Prod.fst h3).symm
  have hmem : ∀ x ∈ pairs.toFinset, ∃ y ∈ L, x.1 = key (hidOf st) y.1 ∧ x.2 ∈ y.2 := by
    intro x hx
    obtain ⟨y, hy, hxy⟩ := List.mem_flatMap.mp (List.mem_toFinset.mp hx)
    obtain ⟨c, hc, rfl⟩ := List.mem_map.mp hxy
    exact ⟨y, hy, rfl, hc⟩
  refine ⟨news, pairs.toFinset, e1, by rw [List.toFinset_card_of_nodup hnd, hlen], fun x hx => ?_,
    Or.inr ⟨?_, fun x hx => ?_⟩, _, l1, l5⟩
  · obtain ⟨y, hy, -, hc⟩ := hmem x hx
    have : x.2 ∈ news := by
      rw [← hnews]
      exact List.mem_flatMap.mpr ⟨y, hy, hc⟩
    exact ⟨this, (hb.new _ this).1⟩
  · rw [e3]
    exact ⟨_, h.live ht ha⟩
  · obtain ⟨y, hy, hk, hc'⟩ := hmem x hx
    obtain ⟨k1, -, rg, k2, k3⟩ := l4 y hy
    obtain ⟨d, d1, d2, -, d3⟩ := hb.expl y.1 (by rw [← hds]; exact List.mem_map_of_mem hy) []
    refine ⟨d, ?_, (key_slices d1).trans hk.symm, by rw [hk]; exact k1, ?_⟩
    · rw [e3]
      exact d3 fun hu => h.hpCp (hc hu) ht ha
    · rw [List.append_nil, ← e1] at d1
      rcases withSlices_removed d1 with ⟨h1, -⟩ | ⟨rg', h1, h2⟩
      · rw [k2] at h1; cases h1
      · rw [k2] at h1
        cases h1
        rw [h2, ← slice_ok k3]
        exact hc'

theorem update_pass (ht : Solved t) {st : Strategy} {fuel : Nat} (hf : 1000 ≤ fuel) {s : Solver} (h : W 0 s) {g : Grid}
    (hs : Sem s g) (ha : Agree t s) (hcur : usesHp st = true → HpCurrent s) {f : Solver → Res (Solver × Bool)}
    {r : Solver × Bool} (he : andThen (s.update fuel false true) (fun s1 => do
      let (s2, _) ← f s1
      .ok (s2, true)) = .ok r)
    (hF : ∀ s1, Base s1 → ∃ F, f s1 = F s1 ∧ AddsBy (hidOf st) (keysOf st) F ∧
      Res.Post (F s1) (fun r => Ext (NewElim s1) (DedOf st s1.cp s1.hp) s1 r.1) False) : Booked t st s r.1 := by
  unfold andThen at he
  obtain ⟨⟨s1, ok⟩, h1, h2⟩ := bind_ok he
  have hu := update_step (sts := []) (fn := false) (fun h => by cases h) hf h
  rw [h1] at hu
  have hel : NoExcl s s1 := NoExcl.of_update hf h h1
  cases ok with
  | false => cases h2; exact Booked.none hel
  | true =>
    simp only [if_true] at h2
    obtain ⟨h3, h4⟩ := hu.2 rfl
    obtain ⟨F, e, k1, k2⟩ := hF s1 h4
    rw [e] at h2
    obtain ⟨⟨s2, b'⟩, h5, h6⟩ := bind_ok h2
    cases h6
    rw [h5] at k2
    obtain ⟨hrun, g', -, hsem⟩ := hu.1.sem g hs
    have hc : usesHp st = true → HpCurrent s1 := by
      intro hu
      obtain ⟨ext, x1, _, x3⟩ := h3.ded
      rw [x3 rfl, List.append_nil] at x1
      intro x d p
      have hh := hcur hu x d p
      show s1.hp[x][d].getLsbD p.val = true ↔ _
      rw [h3.hp, x1, h3.elim]
      exact hh
    exact (search_pass ht ⟨h4, hsem rfl⟩ (hrun.pres t ht ha) hc k1 h5 k2).after hel

/-- A pass of the first strategy, unless it finds singles. -/
theorem deduce_pass (ht : Solved t) {st : Strategy} (h1 : st ≠ .nakedSingles) (h2 : st ≠ .hiddenSingles) {fuel : Nat}
    (hf : 1000 ≤ fuel) {s : Solver} (h : W 0 s) {g : Grid} (hs : Sem s g) (ha : Agree t s) {r : Solver × Bool}
    (he : st.deduce fuel false true s = .ok r) : Booked t st s r.1 := by
  have hsub : ∀ (size : UInt8), size ≠ 0 → subsetStrategy false size.toNat = some st → hidOf st = false →
      keysOf st = (fun _ => True) → usesHp st = false → s.findNakedSubsets fuel size false = .ok r → Booked t st s r.1 := by
    intro size h0 hst hid hk hu he
    exact update_pass ht hf h hs ha (fun h => by rw [hu] at h; cases h) he fun s1 k => ⟨_, rfl, by
      rw [hid, hk]; exact nakedSubsets_adds k.w.fits h0 false, nakedSubsets_search k.w.fits k.removed hst false⟩
  have hhid : ∀ (size : UInt8), size ≠ 0 → subsetStrategy true size.toNat = some st → hidOf st = true →
      keysOf st = (fun _ => True) → s.findHiddenSubsets fuel size false = .ok r → Booked t st s r.1 := by
    intro size h0 hst hid hk he
    unfold Solver.findHiddenSubsets andThen at he
    obtain ⟨⟨s1, ok⟩, h1, h2⟩ := bind_ok he
    have hu := update_step (sts := []) (fn := false) (fun h => by cases h) hf h
    rw [h1] at hu
    have hel : NoExcl s s1 := NoExcl.of_update hf h h1
    cases ok with
    | false => cases h2; exact Booked.none hel
    | true =>
      simp only [if_true] at h2
      have hb1 : Base s1 := (hu.2 rfl).2
      obtain ⟨s2, e, _, h6, h7, h9, _⟩ := updateHousePoss_step (sts := []) hb1.w
      have h9 := h9 hb1
      obtain ⟨hp, hpE, hpN, e', _⟩ := updateHousePoss_w (k := 0) (by omega) hb1.w
      have hel2 : NoExcl s1 s2 := by
        rw [e] at e'
        rw [Res.ok.inj e']
        exact NoExcl.of_eq rfl rfl
      rw [e, Res.ok_bind] at h2
      obtain ⟨⟨s3, b'⟩, h3, h4⟩ := bind_ok h2
      cases h4
      have hx := hiddenSubsets_search h9.w.fitsP h6 hst false
      rw [h3] at hx
      obtain ⟨hrun, g', -, hsem⟩ := hu.1.sem g hs
      obtain ⟨hrun2, g2, -, hsem2⟩ := h7.sem g' (hsem rfl)
      have := search_pass (r := (s3, b')) ht ⟨h9, hsem2 rfl⟩ (hrun2.pres t ht (hrun.pres t ht ha)) (fun _ => h6)
        (by rw [hid, hk]; exact hiddenSubsets_adds h9.w.fitsP h0 false) h3 hx
      exact (this.after hel2).after hel
  have hpre : ∃ s2, s.updateHousePoss = .ok s2 ∧ W 0 s2 ∧ HpCurrent s2 ∧ NoExcl s s2 ∧
      ∃ g2, Sem s2 g2 ∧ Agree t s2 := by
    obtain ⟨s2, e, h5, h6, h7, _, _⟩ := updateHousePoss_step (sts := []) h
    obtain ⟨hp, hpE, hpN, e', _⟩ := updateHousePoss_w (k := 0) (by omega) h
    rw [e] at e'
    have e' := Res.ok.inj e'
    obtain ⟨hrun2, g2, -, hsem2⟩ := h7.sem g hs
    exact ⟨s2, e, h5, h6, by rw [e']; exact NoExcl.of_eq rfl rfl, g2, hsem2 rfl, hrun2.pres t ht ha⟩
  have hfish : ∀ (size : UInt8), size ≠ 0 → fishStrategy size.toNat = some st → keysOf st = (fun _ => True) →
      s.findFish fuel size false = .ok r → Booked t st s r.1 := by
    intro size h0 hst hk he
    obtain ⟨s2, e, h5, h6, hel, g2, hs2, ha2⟩ := hpre
    unfold Solver.findFish at he
    rw [e, Res.ok_bind] at he
    exact (update_pass ht hf h5 hs2 ha2 (fun _ => h6) he fun s1 k => ⟨_, rfl, by
      rw [hk]; exact fish_adds k.w.fitsP h0 false, fish_search k.w.fitsP k.removed hst false⟩).after hel
  have hmut : ∀ (size : UInt8), size ≠ 0 → s.findMutantFish fuel size false = .ok r → Booked t st s r.1 := by
    intro size h0 he
    obtain ⟨s2, e, h5, h6, hel, g2, hs2, ha2⟩ := hpre
    unfold Solver.findMutantFish at he
    rw [e, Res.ok_bind] at he
    unfold andThen at he
    obtain ⟨⟨s1, ok⟩, h1, h2⟩ := bind_ok he
    have hu := update_step (sts := []) (fn := false) (fun h => by cases h) hf h5
    rw [h1] at hu
    have hel1 : NoExcl s2 s1 := NoExcl.of_update hf h5 h1
    cases ok with
    | false => cases h2; exact Booked.none (hel1.trans hel)
    | true =>
      simp only [if_true] at h2
      obtain ⟨⟨s3, b'⟩, h3, h4⟩ := bind_ok h2
      cases h4
      have hx := mutantFish_search (hu.2 rfl).2.w.fitsP h0 false
      rw [h3] at hx
      have hx : s3 = s1 := hx
      subst hx
      exact Booked.none (hel1.trans hel)
  unfold Strategy.deduce at he
  cases st with
  | nakedSingles => exact absurd rfl h1
  | hiddenSingles => exact absurd rfl h2
  | lockedCandidates =>
    exact update_pass ht hf h hs ha (fun h => by cases h) he fun s1 k => ⟨_, rfl, locked_adds k.w.fits false,
      locked_search k.w.fits k.removed false⟩
  | nakedPairs => exact hsub 2 (by decide) rfl rfl rfl rfl he
  | nakedTriples => exact hsub 3 (by decide) rfl rfl rfl rfl he
  | nakedQuads => exact hsub 4 (by decide) rfl rfl rfl rfl he
  | hiddenPairs => exact hhid 2 (by decide) rfl rfl rfl he
  | hiddenTriples => exact hhid 3 (by decide) rfl rfl rfl he
  | hiddenQuads => exact hhid 4 (by decide) rfl rfl rfl he
  | xWing => exact hfish 2 (by decide) rfl rfl he
  | swordfish => exact hfish 3 (by decide) rfl rfl he
  | jellyfish => exact hfish 4 (by decide) rfl rfl he
  | xyWing =>
    exact update_pass ht hf h hs ha (fun h => by cases h) he fun s1 k => ⟨_, rfl, xyWing_adds s1.cp false,
      xyWing_search k.w.fits k.removed false⟩
  | xyzWing =>
    exact update_pass ht hf h hs ha (fun h => by cases h) he fun s1 k => ⟨_, rfl, xyzWing_adds s1.cp false,
      xyzWing_search k.w.fits k.removed false⟩
  | mutantSwordfish => exact hmut 3 (by decide) he
  | mutantJellyfish => exact hmut 4 (by decide) he
  | avoidableRectangles => cases he

/-! ## The loop -/

/-- The exclusions are booked: those of the first strategy in `T`, the others in `U`. -/
def Booking (ht : Solved t) (first : Strategy) (s : Solver) : Prop :=
  ∃ (T : Finset (Key × Candidate)) (U : Finset Candidate), s.eliminated.length ≤ U.card + T.card ∧
    (∀ x ∈ T, x.2 ∈ s.eliminated) ∧ (∀ u ∈ U, u ∈ s.eliminated) ∧ Account ht (Cands s.cp) T first ∧
    Ranges 0 s.eliminated.length s.deductions

theorem Booking.pass {ht : Solved t} {first : Strategy} {s s' : Solver} (h : Booking ht first s) (hp : Booked t first s s')
    (hs : Sub s'.cp s.cp) : Booking ht first s' := by
  classical
  obtain ⟨T, U, h1, h2, h3, h4, h5⟩ := h
  obtain ⟨news, N, k1, k2, k3, k4, ds, k5, k6⟩ := hp
  have h4 : Account ht (Cands s'.cp) T first := h4.mono fun c d hcd => hs c d.val hcd
  refine ⟨T ∪ N, U, ?_, ?_, ?_, ?_, by rw [k5]; exact h5.append k6⟩
  · have hd : Disjoint T N := Finset.disjoint_left.mpr fun x hx hy => (k3 x hy).2 (h2 x hx)
    rw [Finset.card_union_of_disjoint hd, k1, List.length_append]
    omega
  · intro x hx
    rw [k1]
    rcases Finset.mem_union.mp hx with hx | hx
    · exact List.mem_append_left _ (h2 x hx)
    · exact List.mem_append_right _ (k3 x hx).1
  · intro u hu
    rw [k1]
    exact List.mem_append_left _ (h3 u hu)
  · rcases k4 with rfl | ⟨⟨F, hl⟩, hf⟩
    · rw [Finset.union_empty]
      exact h4
    · exact h4.union hl hf

theorem Booking.grow {ht : Solved t} {first : Strategy} {s s' : Solver} {H : Prop} {C : Fin 81 → Prop} (h : Booking ht first s)
    (hg : Grow true H C s s') : Booking ht first s' := by
  classical
  obtain ⟨T, U, h1, h2, h3, h4, h5⟩ := h
  obtain ⟨_, k5, _, hs, _, hb⟩ := hg
  obtain ⟨k6, l, k1, k2, k3⟩ := hb rfl
  refine ⟨T, U ∪ l.toFinset, ?_, ?_, ?_, h4.mono fun c d hcd => hs c d.val hcd,
    by rw [k5]; exact h5.append k6⟩
  · have hd : Disjoint U l.toFinset := Finset.disjoint_left.mpr fun x hx hy => k3 x (List.mem_toFinset.mp hy) (h3 x hx)
    rw [Finset.card_union_of_disjoint hd, List.toFinset_card_of_nodup k2, k1, List.length_append]
    omega
  · intro x hx
    rw [k1]
    exact List.mem_append_left _ (h2 x hx)
  · intro u hu
    rw [k1]
    rcases Finset.mem_union.mp hu with hu | hu
    · exact List.mem_append_left _ (h3 u hu)
    · exact List.mem_append_right _ (List.mem_toFinset.mp hu)

theorem Booking.length {ht : Solved t} {first : Strategy} {s : Solver} (h : Booking ht first s) :
    s.eliminated.length ≤ 65394 := by
  obtain ⟨T, U, h1, -, -, h4, -⟩ := h
  have := h4.card
  have hU := nodup_length (Finset.nodup_toList U)
  rw [Finset.length_toList] at hU
  omega

theorem restLoop_booking (ht : Solved t) {first : Strategy} {fuel : Nat} (hf : 1000 ≤ fuel) {n m : Nat} :
    ∀ (rest : List Strategy) (s : Solver) (r : Solver × Bool) (g : Grid), W 0 s → Sem s g → Agree t s → Booking ht first s →
      restLoop fuel n m rest s = .ok r → Booking ht first r.1 ∧ (r.2 = true → W 0 r.1 ∧ (∃ g', Sem r.1 g') ∧ Agree t r.1) := by
  intro rest
  induction rest with
  | nil => intro s r g h hs ha hb he; cases he; exact ⟨hb, fun _ => ⟨h, ⟨g, hs⟩, ha⟩⟩
  | cons st rest ih =>
    intro s r g h hs ha hb he
    unfold restLoop at he
    obtain ⟨⟨s1, ok⟩, h1, h2⟩ := bind_ok he
    have hav : st ≠ .avoidableRectangles := by
      rintro rfl
      cases h1
    have hst := deduce_step (sts := [st]) (by simp) hav hf (stop := true) (isFirst := false) rfl h
    rw [h1] at hst
    have hn1 : Grow true False (fun _ => False) s s1 := (deduce_grow hf rfl (fun _ => Or.inl rfl) h h1 fun hh => hh.elim).1
    have hb1 := hb.grow hn1
    obtain ⟨hrun, g1, -, hsem⟩ := hst.sem g hs
    have ha1 := hrun.pres t ht ha
    cases ok
    · cases h2
      exact ⟨hb1, fun h => by cases h⟩
    · simp only [Bool.not_true, Bool.false_eq_true, if_false] at h2
      split at h2
      · cases h2
        exact ⟨hb1, fun _ => ⟨hst.w rfl, ⟨g1, hsem rfl⟩, ha1⟩⟩
      · exact ih s1 r g1 (hst.w rfl) (hsem rfl) ha1 hb1 h2

theorem solveLoop_booking (ht : Solved t) {first : Strategy} {rest : List Strategy} {fuel0 : Nat} (hf : 1000 ≤ fuel0) :
    ∀ (fuel : Nat) (s s' : Solver) (g : Grid), W 0 s → Sem s g → Agree t s → Booking ht first s →
    solveLoop fuel0 first rest fuel s = .ok s' → Booking ht first s' := by
  intro fuel
  induction fuel with
  | zero => intro s s' g _ _ _ _ he; cases he
  | succ fuel ih =>
    intro s s' g h hs ha hb he
    unfold solveLoop at he
    split at he
    · cases he; exact hb
    · dsimp only at he
      obtain ⟨⟨s1, ok⟩, h1, h2⟩ := bind_ok he
      have hav : first ≠ .avoidableRectangles := by
        rintro rfl
        cases h1
      have hst := deduce_step (sts := [first]) (by simp) hav hf (stop := false) (isFirst := true) rfl h
      rw [h1] at hst
      have hb1 : Booking ht first s1 := by
        by_cases hsingle : first = .nakedSingles ∨ first = .hiddenSingles
        · have hn1 : Grow true False (fun _ => False) s s1 :=
            (deduce_grow hf rfl (fun _ => Or.inr hsingle) h h1 fun hh => hh.elim).1
          exact hb.grow hn1
        · rw [not_or] at hsingle
          exact hb.pass (deduce_pass ht hsingle.1 hsingle.2 hf h hs ha h1) hst.sub
      obtain ⟨hrun, g1, -, hsem⟩ := hst.sem g hs
      have ha1 := hrun.pres t ht ha
      cases ok
      · cases h2
        exact hb1
      · simp only [Bool.not_true, Bool.false_eq_true, if_false] at h2
        split at h2
        · exact ih s1 s' g1 (hst.w rfl) (hsem rfl) ha1 hb1 h2
        · obtain ⟨⟨s2, again⟩, h3, h4⟩ := bind_ok h2
          obtain ⟨k1, k2⟩ := restLoop_booking ht hf rest s1 _ g1 (hst.w rfl) (hsem rfl) ha1 hb1 h3
          cases again
          · cases h4
            exact k1
          · obtain ⟨m1, ⟨g2, m2⟩, m3⟩ := k2 rfl
            exact ih s2 s' g2 m1 m2 m3 k1 h4

/-- A sudoku with a solution gets few exclusions. -/
theorem trySolve_few {looked : Bool} {s : Solver} {g : Grid} {X : Fin 81 → Digit → Prop} (h : Reaches looked s g X)
    {fuel : Nat} (hf : 1000 ≤ fuel) {sts : List Strategy} (ht : SolutionOf g X t) {s' : Solver}
    (he : s.trySolve fuel sts = .ok s') :
    s'.eliminated.length ≤ 65394 ∧ Ranges 0 s'.eliminated.length s'.deductions := by
  unfold Solver.trySolve at he
  cases sts with
  | nil =>
    cases he
    have := nodup_length h.nodup
    exact ⟨by omega, by rw [h.inv.1.none]; exact Ranges.nil (Nat.zero_le _)⟩
  | cons first rest =>
    obtain ⟨g1, hs⟩ := h.inv.2 (Or.inr (Consistent.of_solution ht))
    have ha := h.inv.1.agree_of ht
    have hb := solveLoop_booking (first := first) ht.1.1 hf fuel s s' g1 h.inv.1.w hs ha ?_ he
    · exact ⟨hb.length, hb.elim fun _ h => h.elim fun _ h => h.2.2.2.2⟩
    classical
    refine ⟨∅, s.eliminated.toFinset, ?_, by simp, fun u hu => List.mem_toFinset.mp hu, Account.empty _ _ _,
      by rw [h.inv.1.none]; exact Ranges.nil (Nat.zero_le _)⟩
    rw [List.toFinset_card_of_nodup h.nodup]
    simp

theorem solve_few {looked : Bool} {s : Solver} {g : Grid} {X : Fin 81 → Digit → Prop} (h : Reaches looked s g X)
    {fuel : Nat} (hf : 1000 ≤ fuel) {sts : List Strategy} (ht : SolutionOf g X t) {r : Grid × Deductions}
    (hr : Returned fuel sts s r) : r.2.eliminated.length < 65536 := by
  obtain ⟨s', h1, -, h2⟩ := solve_tried hr
  rw [h2]
  have := (trySolve_few h hf ht h1).1
  omega

/-- The lengths of the lists add up to at most the length of the whole list. -/
theorem Ranges.sum {elim : List Candidate} : ∀ {ds : List RangeDeduction} {a b : Nat}, Ranges a b ds →
    ∀ (xs : List (Deduction (List Candidate))), List.Forall₂ (fun d x => withSlices d elim = .ok x) ds xs →
    (xs.map fun x => (Pattern.removed x).length).sum ≤ b - a := by
  intro ds
  induction ds with
  | nil => intro a b _ xs hx; cases hx; simp
  | cons d ds ih =>
    intro a b h xs hx
    cases hx with
    | @cons _ x _ xs hd hx =>
    rw [List.map_cons, List.sum_cons]
    obtain ⟨h0, h1, h2⟩ := h
    rw [List.pairwise_cons] at h2
    rcases withSlices_removed hd with ⟨-, e⟩ | ⟨rg, e1, e2⟩
    · rw [e, List.length_nil, Nat.zero_add]
      exact ih ⟨h0, fun d' hd' => h1 d' (List.mem_cons_of_mem _ hd'), h2.2⟩ xs hx
    · have k := h1 d List.mem_cons_self rg e1
      have hle : (Pattern.removed x).length ≤ rg.2 - rg.1 := by
        rw [e2, List.length_drop, List.length_take]
        omega
      by_cases hlt : rg.1 ≤ rg.2
      · have := ih (a := rg.2) (b := b) ⟨k.2, fun d' hd' rg' hr => ⟨h2.1 d' hd' rg rg' e1 hr,
          (h1 d' (List.mem_cons_of_mem _ hd') rg' hr).2⟩, h2.2⟩ xs hx
        omega
      · have := ih (a := a) (b := b) ⟨h0, fun d' hd' => h1 d' (List.mem_cons_of_mem _ hd'), h2.2⟩ xs hx
        omega

end Verif.Strat
