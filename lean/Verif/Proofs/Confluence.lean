import Verif.Spec.Simpler
import Verif.Proofs.StratImplied

/-!
# Patterns persist: what a pattern excludes is excluded in every later state with nothing left to find
-/
namespace Verif.Strat

open Verif Verif.Bitset

/-- Candidates that go with the solution `t` when the cells `F` are filled. -/
structure Live (t : Grid) (F : Fin 81 → Prop) (P : Fin 81 → Digit → Prop) : Prop where
  empty : ∀ c d, P c d → ¬ F c
  own : ∀ c, ¬ F c → P c (dig t c)
  seen : ∀ (c c' : Fin 81) (d : Digit), F c' → SameHouse c' c → P c d → dig t c' ≠ d

/-- The cell at a position of a house. -/
def cellIn (h : Fin 27) (p : Nat) : Fin 81 := if hp : p < 9 then Pos.houseCellAt h ⟨p, hp⟩ else 0

theorem cellIn_spec (h : Fin 27) {p : Nat} (hp : p < 9) : Pattern.InHouse h (cellIn h p) ∧ Pattern.posIn h (cellIn h p) = p := by
  unfold cellIn
  rw [dif_pos hp]
  exact hca_inHouse h ⟨p, hp⟩

theorem cellIn_posIn {h : Fin 27} {c : Fin 81} (hc : Pattern.InHouse h c) : cellIn h (Pattern.posIn h c) = c := by
  obtain ⟨h1, h2⟩ := cellIn_spec h (posIn_lt h c)
  exact posIn_inj h _ _ h1 hc h2

/-- The place of a digit in a house of a solved grid. -/
theorem place_exists {t : Grid} (ht : Solved t) (h : Fin 27) (d : Digit) : ∃ c, Pattern.InHouse h c ∧ dig t c = d := by
  obtain ⟨p, hp⟩ := exists_pos ht h d
  exact ⟨_, (hca_inHouse h p).1, Digit.get_inj ((dig_spec ht _).symm.trans hp)⟩

theorem dig_unique {t : Grid} (ht : Solved t) {c c' : Fin 81} (hs : SameHouse c c') (h : dig t c = dig t c') : c = c' := by
  by_contra hne
  refine ht.2 c c' hne hs ?_
  rw [dig_spec ht c, dig_spec ht c', h]

theorem bits_exists (w : Nat) (s : Finset Nat) (hs : ∀ i ∈ s, i < w) : ∃ b : BitVec w, elems b = s := by
  induction s using Finset.induction_on with
  | empty => exact ⟨NONE w, elems_NONE⟩
  | @insert a s _ ih =>
    obtain ⟨b, hb⟩ := ih fun i hi => hs i (Finset.mem_insert_of_mem hi)
    refine ⟨union (asSet w a) b, ?_⟩
    rw [elems_union, hb, elems_asSet (hs a (Finset.mem_insert_self a s))]
    rfl

/-- Two sets of the same size that are matched by `f`, without the elements in `F`. -/
theorem shrink {A B : Finset Nat} {n : Nat} (hA : A.card = n) (hB : B.card = n) (f : Nat → Nat)
    (hm : ∀ a ∈ A, f a ∈ B) (hi : ∀ a ∈ A, ∀ a' ∈ A, f a = f a' → a = a') (F : Nat → Prop) :
    ∃ A' B' : Finset Nat, B'.card = A'.card ∧ A'.card ≤ n ∧ (∀ a, a ∈ A' ↔ a ∈ A ∧ ¬ F a) ∧
      (∀ b, b ∈ B' ↔ ∃ a ∈ A', f a = b) ∧ ∀ b ∈ B, ∃ a ∈ A, f a = b := by
  classical
  have himg : A.image f = B := by
    refine Finset.eq_of_subset_of_card_le (fun b hb => ?_) ?_
    · obtain ⟨a, ha, rfl⟩ := Finset.mem_image.mp hb
      exact hm a ha
    · rw [Finset.card_image_of_injOn (fun a ha a' ha' => hi a ha a' ha'), hA, hB]
  refine ⟨A.filter (fun a => ¬ F a), (A.filter (fun a => ¬ F a)).image f, ?_, ?_, ?_, ?_, ?_⟩
  · refine Finset.card_image_of_injOn fun a ha a' ha' => hi a ?_ a' ?_
    · exact (Finset.mem_filter.mp ha).1
    · exact (Finset.mem_filter.mp ha').1
  · rw [← hA]
    exact Finset.card_filter_le _ _
  · intro a
    exact Finset.mem_filter
  · intro b
    exact Finset.mem_image
  · intro b hb
    rw [← himg] at hb
    exact Finset.mem_image.mp hb

variable {t : Grid} {F F' : Fin 81 → Prop} {P Q : Fin 81 → Digit → Prop}

/-- The place of a digit is still open if the digit is a candidate in a house with it. -/
theorem Live.open_place (hP : Live t F P) {p c : Fin 81} {d : Digit} (hs : SameHouse p c) (hc : P c d) (hp : dig t p = d) :
    P p d := by
  have := hP.own p fun hf => hP.seen c p d hf hs hc hp
  rwa [hp] at this

theorem persist_naked (hP : Live t F P) (hQ : Live t F' Q) (hle : ∀ c d, Q c d → P c d)
    (hn : ∀ x, ¬ Pattern.Matches Q .nakedSingles x) {e : Candidate} (h : Pattern.NakedSingle P e) : F' e.cell := by
  by_contra hf
  have h1 := hQ.own _ hf
  have h2 : dig t e.cell = e.digit := (h _).mp (hle _ _ h1)
  refine hn (.nakedSingles e) (show Pattern.NakedSingle Q e from fun d => ⟨fun hd => (h d).mp (hle _ _ hd), ?_⟩)
  rintro rfl
  rwa [h2] at h1

theorem hidden_none (hn : ∀ x, ¬ Pattern.Matches Q .hiddenSingles x) {h : Fin 27} {e : Candidate}
    (hs : Pattern.HiddenSingle Q e h.val) : False := by
  by_cases h9 : h.val < 9
  · exact hn (.hiddenSingles e (.row ⟨h.val, h9⟩)) hs
  · by_cases h18 : h.val < 18
    · refine hn (.hiddenSingles e (.col ⟨h.val - 9, by omega⟩)) ?_
      show Pattern.HiddenSingle Q e (9 + (h.val - 9))
      rwa [show 9 + (h.val - 9) = h.val by omega]
    · refine hn (.hiddenSingles e (.block ⟨h.val - 18, by omega⟩)) ?_
      show Pattern.HiddenSingle Q e (18 + (h.val - 18))
      rwa [show 18 + (h.val - 18) = h.val by omega]

theorem persist_hidden (ht : Solved t) (hP : Live t F P) (hQ : Live t F' Q) (hle : ∀ c d, Q c d → P c d)
    (hn : ∀ x, ¬ Pattern.Matches Q .hiddenSingles x) {e : Candidate} {h : Fin 27}
    (hs : Pattern.HiddenSingle P e h.val) : F' e.cell := by
  by_contra hf
  obtain ⟨hin, hall⟩ := hs
  obtain ⟨p, hp, hd⟩ := place_exists ht h e.digit
  have hcand := (hall _ hin).mpr rfl
  have hpe : p = e.cell := (hall p hp).mp (hP.open_place (hp.same hin) hcand hd)
  subst hpe
  refine hidden_none hn (e := e) (h := h) ⟨hin, fun c hc => ⟨fun h1 => (hall c hc).mp (hle _ _ h1), ?_⟩⟩
  rintro rfl
  have := hQ.own _ hf
  rwa [hd] at this

theorem persist_locked (ht : Solved t) (hP : Live t F P) (hQ : Live t F' Q) (hle : ∀ c d, Q c d → P c d)
    (hn : ∀ x, ¬ Pattern.Matches Q .lockedCandidates x) {m : Fin 54} {h1 h2 : Nat} (hlt : h1 < 27)
    (hh : (h1 = Pattern.miniLine m ∧ h2 = Pattern.miniBlock m) ∨ (h2 = Pattern.miniLine m ∧ h1 = Pattern.miniBlock m))
    {digit : Digit} {l : List Candidate} (h : Pattern.Locked P digit h1 h2 l) : ∀ e ∈ l, ¬ Q e.cell e.digit := by
  obtain ⟨⟨c, hc, hcand⟩, hall, -, hl⟩ := h
  rintro ⟨c0, d0⟩ he hq
  obtain ⟨⟨hd0, hin, hout⟩, -⟩ := (hl c0 d0).mp he
  have hd0 : d0 = digit := hd0
  subst hd0
  obtain ⟨p, hp, hd⟩ := place_exists ht ⟨h1, hlt⟩ d0
  have hpP := hP.open_place (hp.same hc) hcand hd
  have hp2 := hall p hp hpP
  have hpQ := hQ.open_place (hp2.same hin) hq hd
  exact no_locked hn hh hp hpQ (fun c hc h => hall c hc (hle _ _ h)) hout hin hq

theorem persist_nakedSubset (ht : Solved t) (hP : Live t F P) (hQ : Live t F' Q) (hle : ∀ c d, Q c d → P c d) {n : Nat}
    (h1 : ∀ x, ¬ Pattern.Matches Q .nakedSingles x) {h : Fin 27}
    (hn : ∀ m, 2 ≤ m → m ≤ n → ∀ ps ds l, ¬ Pattern.NakedSubset Q m h.val ps ds l) {ps : PosSet} {ds : DigitSet}
    {l : List Candidate} (hs : Pattern.NakedSubset P n h.val ps ds l) : ∀ e ∈ l, ¬ Q e.cell e.digit := by
  obtain ⟨a1, a2, a3, -, a5, -, a6⟩ := hs
  rintro ⟨c0, d0⟩ he hq
  obtain ⟨⟨hin, hout, hd0⟩, -⟩ := (a6 c0 d0).mp he
  have cell : ∀ p ∈ elems ps, Pattern.InHouse h (cellIn h p) ∧ Pattern.posIn h (cellIn h p) = p :=
    fun p hp => cellIn_spec h (a3 p hp)
  have unf : ∀ p ∈ elems ps, P (cellIn h p) (dig t (cellIn h p)) := by
    intro p hp
    obtain ⟨c1, c2⟩ := cell p hp
    obtain ⟨⟨d, hd⟩, -⟩ := a5 _ c1 (by rw [c2]; exact hp)
    exact hP.own _ (hP.empty _ _ hd)
  obtain ⟨A', B', b1, b2, b3, b4, b5⟩ := shrink a1 a2 (fun p => (dig t (cellIn h p)).val)
    (fun p hp => by
      obtain ⟨c1, c2⟩ := cell p hp
      exact (a5 _ c1 (by rw [c2]; exact hp)).2 _ (unf p hp))
    (fun p hp p' hp' heq => by
      have := dig_unique ht ((cell p hp).1.same (cell p' hp').1) (Fin.ext heq)
      rw [← (cell p hp).2, ← (cell p' hp').2, this])
    (fun p => F' (cellIn h p))
  -- the digits of the open cells
  have inB : ∀ (c : Fin 81) (d : Digit), Pattern.InHouse h c → Q c d → d.val ∈ elems ds → d.val ∈ B' := by
    intro c d hc hcd hd
    obtain ⟨p, hp, hpd⟩ := b5 _ hd
    refine (b4 _).mpr ⟨p, (b3 p).mpr ⟨hp, fun hf => ?_⟩, hpd⟩
    exact hQ.seen c _ d hf ((cell p hp).1.same hc) hcd (Fin.ext hpd)
  have hB0 := inB c0 d0 hin hq hd0
  obtain ⟨p0, hp0, -⟩ := (b4 _).mp hB0
  have sub : ∀ c d, Pattern.InHouse h c → Pattern.posIn h c ∈ A' → Q c d → d.val ∈ B' := by
    intro c d hc hp hcd
    exact inB c d hc hcd ((a5 c hc ((b3 _).mp hp).1).2 d (hle _ _ hcd))
  by_cases hcard : 2 ≤ A'.card
  · obtain ⟨ps', e1⟩ := bits_exists 16 A' fun i hi => by
      have := a3 i ((b3 i).mp hi).1
      omega
    obtain ⟨ds', e2⟩ := bits_exists 16 B' fun i hi => by
      obtain ⟨p, -, rfl⟩ := (b4 i).mp hi
      have := (dig t (cellIn h p)).isLt
      show (dig t (cellIn h p)).val < 16
      omega
    obtain ⟨l', hl'⟩ := lists_of Q (fun c d => Pattern.InHouse h.val c ∧ ¬ Pattern.Has ps' (Pattern.posIn h.val c) ∧
      Pattern.Has ds' d.val) (c := c0) (d := d0)
      ⟨hin, fun hp => hout (by
        unfold Pattern.Has at hp
        rw [e1] at hp
        exact ((b3 _).mp hp).1), by unfold Pattern.Has; rw [e2]; exact hB0⟩ hq
    refine hn A'.card hcard b2 ps' ds' l' ⟨by rw [e1], by rw [e2, b1], ?_, ?_, ?_, hl'⟩
    · intro p hp
      unfold Pattern.Has at hp
      rw [e1] at hp
      exact a3 p ((b3 p).mp hp).1
    · intro d hd
      unfold Pattern.Has at hd
      rw [e2] at hd
      obtain ⟨p, -, rfl⟩ := (b4 d).mp hd
      exact (dig t (cellIn h p)).isLt
    · intro c hc hp
      unfold Pattern.Has at hp ⊢
      rw [e1] at hp
      rw [e2]
      refine ⟨⟨dig t c, hQ.own c ?_⟩, fun d hd => sub c d hc hp hd⟩
      have := ((b3 _).mp hp).2
      rwa [cellIn_posIn hc] at this
  · -- one cell is left
    have hone : A'.card = 1 := by
      have : 0 < A'.card := Finset.card_pos.mpr ⟨p0, hp0⟩
      omega
    obtain ⟨a, ha⟩ := Finset.card_eq_one.mp hone
    have haA : a ∈ A' := by rw [ha]; exact Finset.mem_singleton_self a
    obtain ⟨haps, hopen⟩ := (b3 a).mp haA
    obtain ⟨c1, c2⟩ := cell a haps
    refine h1 (.nakedSingles ⟨cellIn h a, dig t (cellIn h a)⟩)
      (show Pattern.NakedSingle Q ⟨cellIn h a, dig t (cellIn h a)⟩ from fun d => ⟨fun hd => ?_, ?_⟩)
    · obtain ⟨p, hp, hpd⟩ := (b4 _).mp (sub _ d c1 (by rw [c2]; exact haA) hd)
      rw [ha, Finset.mem_singleton] at hp
      subst hp
      exact (Fin.ext hpd).symm
    · rintro rfl
      exact hQ.own _ hopen

theorem persist_hiddenSubset (ht : Solved t) (hP : Live t F P) (hQ : Live t F' Q) (hle : ∀ c d, Q c d → P c d) {n : Nat}
    (h1 : ∀ x, ¬ Pattern.Matches Q .hiddenSingles x) {h : Fin 27}
    (hn : ∀ m, 2 ≤ m → m ≤ n → ∀ ps ds l, ¬ Pattern.HiddenSubset Q m h.val ps ds l) {ps : PosSet} {ds : DigitSet}
    {l : List Candidate} (hs : Pattern.HiddenSubset P n h.val ps ds l) : ∀ e ∈ l, ¬ Q e.cell e.digit := by
  obtain ⟨a1, a2, a3, a4, a5, -, a6⟩ := hs
  rintro ⟨c0, d0⟩ he hq
  obtain ⟨⟨hin, hpos, hd0⟩, -⟩ := (a6 c0 d0).mp he
  choose place place_in place_dig using place_exists ht h
  -- the place of a digit given as a number
  let pl : Nat → Fin 81 := fun d => if hd : d < 9 then place ⟨d, hd⟩ else 0
  have pl_eq : ∀ d : Digit, pl d.val = place d := fun d => dif_pos d.isLt
  have dig_of : ∀ d ∈ elems ds, ∃ e : Digit, e.val = d := fun d hd => ⟨⟨d, a4 d hd⟩, rfl⟩
  have unf : ∀ d : Digit, d.val ∈ elems ds → P (place d) d := by
    intro d hd
    obtain ⟨⟨c, hc, hcd⟩, -⟩ := a5 d hd
    exact hP.open_place ((place_in d).same hc) hcd (place_dig d)
  obtain ⟨A', B', b1, b2, b3, b4, b5⟩ := shrink a2 a1 (fun d => Pattern.posIn h (pl d))
    (fun d hd => by
      obtain ⟨e, rfl⟩ := dig_of d hd
      show Pattern.posIn h (pl e.val) ∈ _
      rw [pl_eq]
      exact (a5 e hd).2 _ (place_in e) (unf e hd))
    (fun d hd d' hd' heq => by
      obtain ⟨e, rfl⟩ := dig_of d hd
      obtain ⟨e', rfl⟩ := dig_of d' hd'
      have heq : Pattern.posIn h (pl e.val) = Pattern.posIn h (pl e'.val) := heq
      rw [pl_eq, pl_eq] at heq
      have := posIn_inj h _ _ (place_in e) (place_in e') heq
      rw [← place_dig e, ← place_dig e', this])
    (fun d => F' (pl d))
  -- the open cells
  have inB : ∀ (c : Fin 81), Pattern.InHouse h c → ¬ F' c → Pattern.posIn h c ∈ elems ps → Pattern.posIn h c ∈ B' := by
    intro c hc hf hp
    obtain ⟨d, hd, hdp⟩ := b5 _ hp
    obtain ⟨e, rfl⟩ := dig_of d hd
    have hdp : Pattern.posIn h (pl e.val) = Pattern.posIn h c := hdp
    have hpc : pl e.val = c := posIn_inj h _ _ (by rw [pl_eq]; exact place_in e) hc hdp
    exact (b4 _).mpr ⟨e.val, (b3 _).mpr ⟨hd, by rw [hpc]; exact hf⟩, hdp⟩
  have hB0 := inB c0 hin (hQ.empty _ _ hq) hpos
  obtain ⟨p0, hp0, -⟩ := (b4 _).mp hB0
  have sub : ∀ (c : Fin 81) (d : Digit), Pattern.InHouse h c → d.val ∈ A' → Q c d → Pattern.posIn h c ∈ B' := by
    intro c d hc hd hcd
    exact inB c hc (hQ.empty _ _ hcd) ((a5 d ((b3 _).mp hd).1).2 c hc (hle _ _ hcd))
  have own : ∀ d : Digit, d.val ∈ A' → Q (place d) d := by
    intro d hd
    have h2 := ((b3 _).mp hd).2
    rw [pl_eq] at h2
    have := hQ.own _ h2
    rwa [place_dig] at this
  by_cases hcard : 2 ≤ A'.card
  · obtain ⟨ds', e1⟩ := bits_exists 16 A' fun i hi => by
      have := a4 i ((b3 i).mp hi).1
      omega
    obtain ⟨ps', e2⟩ := bits_exists 16 B' fun i hi => by
      obtain ⟨p, -, rfl⟩ := (b4 i).mp hi
      have := posIn_lt h (pl p)
      show Pattern.posIn h (pl p) < 16
      omega
    obtain ⟨l', hl'⟩ := lists_of Q (fun c d => Pattern.InHouse h.val c ∧ Pattern.Has ps' (Pattern.posIn h.val c) ∧
      ¬ Pattern.Has ds' d.val) (c := c0) (d := d0)
      ⟨hin, by unfold Pattern.Has; rw [e2]; exact hB0, fun hp => hd0 (by
        unfold Pattern.Has at hp
        rw [e1] at hp
        exact ((b3 _).mp hp).1)⟩ hq
    refine hn A'.card hcard b2 ps' ds' l' ⟨by rw [e2, b1], by rw [e1], ?_, ?_, ?_, hl'⟩
    · intro p hp
      unfold Pattern.Has at hp
      rw [e2] at hp
      obtain ⟨d, -, rfl⟩ := (b4 p).mp hp
      exact posIn_lt h (pl d)
    · intro d hd
      unfold Pattern.Has at hd
      rw [e1] at hd
      exact a4 d ((b3 d).mp hd).1
    · intro d hd
      unfold Pattern.Has at hd ⊢
      rw [e1] at hd
      rw [e2]
      exact ⟨⟨place d, place_in d, own d hd⟩, fun c hc hcd => sub c d hc hd hcd⟩
  · -- one digit is left
    have hone : A'.card = 1 := by
      have : 0 < A'.card := Finset.card_pos.mpr ⟨p0, hp0⟩
      omega
    obtain ⟨a, ha⟩ := Finset.card_eq_one.mp hone
    have haA : a ∈ A' := by rw [ha]; exact Finset.mem_singleton_self a
    obtain ⟨e, rfl⟩ := dig_of a ((b3 a).mp haA).1
    refine hidden_none h1 (h := h) (e := ⟨place e, e⟩) ⟨place_in e, fun c hc => ⟨fun hd => ?_, ?_⟩⟩
    · obtain ⟨p, hp, hpd⟩ := (b4 _).mp (sub c e hc haA hd)
      rw [ha, Finset.mem_singleton] at hp
      subst hp
      have hpd : Pattern.posIn h (pl e.val) = Pattern.posIn h c := hpd
      rw [pl_eq] at hpd
      exact (posIn_inj h _ _ (place_in e) hc hpd).symm
    · rintro rfl
      exact own e haA

/-- Cells at the same position of parallel lines are in one house, and are the same if the lines are the same. -/
theorem parallel {dir l l' : Nat} (hdir : dir = 0 ∨ dir = 9) (hl : dir ≤ l ∧ l < dir + 9) (hl' : dir ≤ l' ∧ l' < dir + 9)
    {c c' : Fin 81} (hc : Pattern.InHouse l c) (hc' : Pattern.InHouse l' c') (hp : Pattern.posIn l c = Pattern.posIn l' c') :
    SameHouse c c' ∧ (c = c' → l = l') := by
  unfold Pattern.InHouse at hc hc'
  unfold Pattern.posIn at hp
  rcases hdir with rfl | rfl
  · rw [if_pos (by omega)] at hc hc'
    rw [if_pos (by omega), if_pos (by omega)] at hp
    exact ⟨Or.inr (Or.inl hp), by rintro rfl; omega⟩
  · rw [if_neg (by omega), if_pos (by omega)] at hc hc'
    rw [if_neg (by omega), if_pos (by omega), if_neg (by omega), if_pos (by omega)] at hp
    exact ⟨Or.inl hp, by rintro rfl; omega⟩

theorem persist_fish (ht : Solved t) (hP : Live t F P) (hQ : Live t F' Q) (hle : ∀ c d, Q c d → P c d) {n : Nat}
    (h1 : ∀ x, ¬ Pattern.Matches Q .hiddenSingles x) {digit : Digit}
    (hn : ∀ m, 2 ≤ m → m ≤ n → ∀ ls ps l, ¬ Pattern.BasicFish Q m digit ls ps l) {ls : LineSet} {ps : PosSet}
    {l : List Candidate} (hs : Pattern.BasicFish P n digit ls ps l) : ∀ e ∈ l, ¬ Q e.cell e.digit := by
  obtain ⟨a1, a2, a3, dir, hdir, a4, a5, -, a6⟩ := hs
  rintro ⟨c0, d0⟩ he hq
  obtain ⟨⟨hd0, l0, g1, g2, g3, g4, g5⟩, -⟩ := (a6 c0 d0).mp he
  have hd0 : d0 = digit := hd0
  subst hd0
  choose place place_in place_dig using fun h => place_exists ht h d0
  let pl : Nat → Fin 81 := fun l => if hl : l < 27 then place ⟨l, hl⟩ else 0
  have pl_spec : ∀ l < 27, Pattern.InHouse l (pl l) ∧ dig t (pl l) = d0 := by
    intro l hl
    have : pl l = place ⟨l, hl⟩ := dif_pos hl
    rw [this]
    exact ⟨place_in ⟨l, hl⟩, place_dig ⟨l, hl⟩⟩
  have lt : ∀ l ∈ elems ls, l < 27 := fun l hl => by
    have := a4 l hl
    omega
  have unf : ∀ l ∈ elems ls, P (pl l) d0 := by
    intro l hl
    obtain ⟨⟨c, hc, hcd⟩, -⟩ := a5 l hl
    obtain ⟨q1, q2⟩ := pl_spec l (lt l hl)
    exact hP.open_place (q1.same hc) hcd q2
  obtain ⟨A', B', b1, b2, b3, b4, b5⟩ := shrink a1 a2 (fun l => Pattern.posIn l (pl l))
    (fun l hl => (a5 l hl).2 _ (pl_spec l (lt l hl)).1 (unf l hl))
    (fun l hl l' hl' heq => by
      obtain ⟨q1, q2⟩ := pl_spec l (lt l hl)
      obtain ⟨q1', q2'⟩ := pl_spec l' (lt l' hl')
      obtain ⟨r1, r2⟩ := parallel hdir (a4 l hl) (a4 l' hl') q1 q1' heq
      exact r2 (dig_unique ht r1 (q2.trans q2'.symm)))
    (fun l => F' (pl l))
  have inB : ∀ (l : Nat) (c : Fin 81), dir ≤ l ∧ l < dir + 9 → Pattern.InHouse l c → Q c d0 →
      Pattern.posIn l c ∈ elems ps → Pattern.posIn l c ∈ B' := by
    intro l c hl hc hcd hp
    obtain ⟨l', hl', hlp⟩ := b5 _ hp
    obtain ⟨q1, q2⟩ := pl_spec l' (lt l' hl')
    refine (b4 _).mpr ⟨l', (b3 _).mpr ⟨hl', fun hf => ?_⟩, hlp⟩
    exact hQ.seen c _ d0 hf (parallel hdir (a4 l' hl') hl q1 hc hlp).1 hcd q2
  have hB0 := inB l0 c0 ⟨g1, g2⟩ g4 hq g5
  obtain ⟨p0, hp0, -⟩ := (b4 _).mp hB0
  have sub : ∀ (l : Nat) (c : Fin 81), Pattern.InHouse l c → l ∈ A' → Q c d0 → Pattern.posIn l c ∈ B' := by
    intro l c hc hl hcd
    have hl1 := ((b3 l).mp hl).1
    exact inB l c (a4 l hl1) hc hcd ((a5 l hl1).2 c hc (hle _ _ hcd))
  have own : ∀ l ∈ A', Q (pl l) d0 := by
    intro l hl
    obtain ⟨hl1, hl2⟩ := (b3 l).mp hl
    have := hQ.own _ hl2
    rwa [(pl_spec l (lt l hl1)).2] at this
  by_cases hcard : 2 ≤ A'.card
  · obtain ⟨ls', e1⟩ := bits_exists 32 A' fun i hi => by
      have := lt i ((b3 i).mp hi).1
      omega
    obtain ⟨ps', e2⟩ := bits_exists 16 B' fun i hi => by
      obtain ⟨p, hp, rfl⟩ := (b4 i).mp hi
      have := posIn_lt ⟨p, lt p ((b3 p).mp hp).1⟩ (pl p)
      show Pattern.posIn p (pl p) < 16
      exact Nat.lt_trans this (by omega)
    obtain ⟨l', hl'⟩ := lists_of Q (fun c d => d = d0 ∧
      ∃ l, dir ≤ l ∧ l < dir + 9 ∧ ¬ Pattern.Has ls' l ∧ Pattern.InHouse l c ∧ Pattern.Has ps' (Pattern.posIn l c))
      (c := c0) (d := d0)
      ⟨rfl, l0, g1, g2, fun hp => g3 (by
        unfold Pattern.Has at hp
        rw [e1] at hp
        exact ((b3 _).mp hp).1), g4, by unfold Pattern.Has; rw [e2]; exact hB0⟩ hq
    refine hn A'.card hcard b2 ls' ps' l' ⟨by rw [e1], by rw [e2, b1], ?_, dir, hdir, ?_, ?_, hl'⟩
    · intro p hp
      unfold Pattern.Has at hp
      rw [e2] at hp
      obtain ⟨l, hl, rfl⟩ := (b4 p).mp hp
      exact posIn_lt ⟨l, lt l ((b3 l).mp hl).1⟩ (pl l)
    · intro l hl
      unfold Pattern.Has at hl
      rw [e1] at hl
      exact a4 l ((b3 l).mp hl).1
    · intro l hl
      unfold Pattern.Has at hl ⊢
      rw [e1] at hl
      rw [e2]
      exact ⟨⟨pl l, (pl_spec l (lt l ((b3 l).mp hl).1)).1, own l hl⟩, fun c hc hcd => sub l c hc hl hcd⟩
  · -- one line is left
    have hone : A'.card = 1 := by
      have : 0 < A'.card := Finset.card_pos.mpr ⟨p0, hp0⟩
      omega
    obtain ⟨a, ha⟩ := Finset.card_eq_one.mp hone
    have haA : a ∈ A' := by rw [ha]; exact Finset.mem_singleton_self a
    have hal := lt a ((b3 a).mp haA).1
    obtain ⟨q1, q2⟩ := pl_spec a hal
    refine hidden_none h1 (h := ⟨a, hal⟩) (e := ⟨pl a, d0⟩) ⟨q1, fun c hc => ⟨fun hd => ?_, ?_⟩⟩
    · obtain ⟨p, hp, hpd⟩ := (b4 _).mp (sub a c hc haA hd)
      rw [ha, Finset.mem_singleton] at hp
      subst hp
      exact (posIn_inj ⟨p, hal⟩ _ _ q1 hc hpd).symm
    · rintro rfl
      exact own a haA

/-- If no naked pair is left: the digits of two cells of a house with two candidates together are not candidates of
other cells. -/
theorem no_pair (hn : ∀ x, ¬ Pattern.Matches Q .nakedPairs x) {a b e : Fin 81} (hab : Pattern.Sees a b)
    (hea : Pattern.Sees e a) (heb : Pattern.Sees e b) {x y : Digit} (hxy : x ≠ y) (na : ∃ d, Q a d) (nb : ∃ d, Q b d)
    (ca : ∀ d, Q a d → d = x ∨ d = y) (cb : ∀ d, Q b d → d = x ∨ d = y) : ¬ Q e y := by
  intro hq
  obtain ⟨h, hh, ha, hb, he⟩ := (common_of hab.2 (sees_symm hea).2 (sees_symm heb).2).house
  have hp := posIn_inj ⟨h, hh⟩
  have hl := posIn_lt ⟨h, hh⟩
  dsimp only at hp hl
  obtain ⟨ps, e1⟩ := bits_exists 16 {Pattern.posIn h a, Pattern.posIn h b} fun i hi => by
    have h1 := hl a
    have h2 := hl b
    rw [Finset.mem_insert, Finset.mem_singleton] at hi
    omega
  obtain ⟨ds, e2⟩ := bits_exists 16 {x.val, y.val} fun i hi => by
    have h1 := x.isLt
    have h2 := y.isLt
    rw [Finset.mem_insert, Finset.mem_singleton] at hi
    omega
  have hps : ∀ i, Pattern.Has ps i ↔ i = Pattern.posIn h a ∨ i = Pattern.posIn h b := by
    intro i
    unfold Pattern.Has
    rw [e1, Finset.mem_insert, Finset.mem_singleton]
  have hds : ∀ i, Pattern.Has ds i ↔ i = x.val ∨ i = y.val := by
    intro i
    unfold Pattern.Has
    rw [e2, Finset.mem_insert, Finset.mem_singleton]
  have hds' : ∀ d : Digit, d = x ∨ d = y → Pattern.Has ds d.val := by
    rintro d (rfl | rfl)
    · exact (hds _).mpr (Or.inl rfl)
    · exact (hds _).mpr (Or.inr rfl)
  obtain ⟨l, hlist⟩ := lists_of Q (fun c d => Pattern.InHouse h c ∧ ¬ Pattern.Has ps (Pattern.posIn h c) ∧
    Pattern.Has ds d.val) (c := e) (d := y) ⟨he, fun h0 => by
      rcases (hps _).mp h0 with h1 | h1
      · exact hea.1 (hp _ _ he ha h1)
      · exact heb.1 (hp _ _ he hb h1), hds' y (Or.inr rfl)⟩ hq
  refine hn (.subsets ⟨h, hh⟩ ps ds l) ⟨?_, ?_, ?_, ?_, ?_, hlist⟩
  · rw [e1]
    exact Finset.card_pair fun h0 => hab.1 (hp _ _ ha hb h0)
  · rw [e2]
    exact Finset.card_pair fun h0 => hxy (Fin.ext h0)
  · intro p h0
    rcases (hps p).mp h0 with rfl | rfl
    · exact hl a
    · exact hl b
  · intro p h0
    rcases (hds p).mp h0 with rfl | rfl
    · exact x.isLt
    · exact y.isLt
  · intro c hc h0
    rcases (hps _).mp h0 with h0 | h0
    · rw [hp _ _ hc ha h0]
      exact ⟨na, fun d hd => hds' d (ca d hd)⟩
    · rw [hp _ _ hc hb h0]
      exact ⟨nb, fun d hd => hds' d (cb d hd)⟩

/-- If no naked single is left, an open cell has no candidate alone. -/
theorem Live.not_single (hQ : Live t F' Q) (hn : ∀ x, ¬ Pattern.Matches Q .nakedSingles x) {c : Fin 81} (hf : ¬ F' c)
    {d : Digit} (h : ∀ d', Q c d' → d' = d) : False := by
  have h1 := hQ.own c hf
  have h2 := h _ h1
  rw [h2] at h1
  refine hn (.nakedSingles ⟨c, d⟩) (show Pattern.NakedSingle Q ⟨c, d⟩ from fun d' => ⟨h d', ?_⟩)
  rintro rfl
  exact h1

/-- An open cell with at most two candidates has both. -/
theorem Live.both (hQ : Live t F' Q) (hn : ∀ x, ¬ Pattern.Matches Q .nakedSingles x) {c : Fin 81} (hf : ¬ F' c)
    {d e : Digit} (h : ∀ d', Q c d' → d' = d ∨ d' = e) : ∀ d', Q c d' ↔ d' = d ∨ d' = e := by
  intro d'
  refine ⟨h d', ?_⟩
  rintro (rfl | rfl)
  · by_contra h0
    exact hQ.not_single hn hf (d := e) fun d1 hd1 => (h d1 hd1).resolve_left fun h2 => h0 (h2 ▸ hd1)
  · by_contra h0
    exact hQ.not_single hn hf (d := d) fun d1 hd1 => (h d1 hd1).resolve_right fun h2 => h0 (h2 ▸ hd1)

/-- The pincers are still open if the wing excludes a candidate. -/
theorem pincer_open (ht : Solved t) (hP : Live t F P) (hQ : Live t F' Q) (hle : ∀ c d, Q c d → P c d) {withZ : Bool}
    (h1 : ∀ x, ¬ Pattern.Matches Q .nakedSingles x) (h2 : withZ = true → ∀ x, ¬ Pattern.Matches Q .nakedPairs x)
    {a p1 p2 c0 : Fin 81} {x y z : Digit} (s1 : Pattern.Sees a p1) (s2 : Pattern.Sees a p2) (hyz : y ≠ z)
    (c1 : ∀ d, P p1 d ↔ d = x ∨ d = z) (c2 : ∀ d, P p2 d ↔ d = y ∨ d = z)
    (ca : ∀ d, P a d ↔ d = x ∨ d = y ∨ (withZ = true ∧ d = z)) (hq : Q c0 z) (t1 : Pattern.Sees c0 p1)
    (t2 : Pattern.Sees c0 p2) (ta : withZ = true → Pattern.Sees c0 a) : ¬ F' p1 := by
  intro hf
  have ownP : ∀ c d, P c d → P c (dig t c) := fun c d h => hP.own c (hP.empty c d h)
  have notz : ∀ c, Pattern.Sees c0 c → F' c → dig t c ≠ z := fun c hc hf => hQ.seen c0 c z hf (sees_symm hc).2 hq
  have hd1 : dig t p1 = x := ((c1 _).mp (ownP p1 x ((c1 x).mpr (Or.inl rfl)))).resolve_right (notz p1 t1 hf)
  have hax : ¬ Q a x := fun h => hQ.seen a p1 x hf (sees_symm s1).2 h hd1
  have hp2 : F' p2 → dig t p2 = y := fun h => ((c2 _).mp (ownP p2 y ((c2 y).mpr (Or.inl rfl)))).resolve_right (notz p2 t2 h)
  by_cases hfa : F' a
  · rcases (ca _).mp (ownP a x ((ca x).mpr (Or.inl rfl))) with h | h | ⟨hz, h⟩
    · exact s1.1 (dig_unique ht s1.2 (h.trans hd1.symm))
    · by_cases hf2 : F' p2
      · exact s2.1 (dig_unique ht s2.2 (h.trans (hp2 hf2).symm))
      · refine hQ.not_single h1 hf2 (d := z) fun d hd => ((c2 d).mp (hle _ _ hd)).resolve_left ?_
        rintro rfl
        exact hQ.seen p2 a d hfa s2.2 hd h
    · exact notz a (ta hz) hfa h
  · have hsub : ∀ d, Q a d → d = y ∨ (withZ = true ∧ d = z) := fun d hd =>
      ((ca d).mp (hle _ _ hd)).resolve_left fun h => hax (h ▸ hd)
    cases hz : withZ with
    | false =>
      refine hQ.not_single h1 hfa (d := y) fun d hd => (hsub d hd).resolve_right fun h => ?_
      rw [hz] at h
      exact absurd h.1 (by decide)
    | true =>
      have hay := hQ.both h1 hfa (d := y) (e := z) fun d hd => (hsub d hd).imp id And.right
      by_cases hf2 : F' p2
      · exact hQ.seen a p2 y hf2 (sees_symm s2).2 ((hay y).mpr (Or.inl rfl)) (hp2 hf2)
      · have hp2y := hQ.both h1 hf2 (d := y) (e := z) fun d hd => (c2 d).mp (hle _ _ hd)
        exact no_pair (h2 hz) s2 (ta hz) t2 hyz ⟨y, (hay y).mpr (Or.inl rfl)⟩ ⟨y, (hp2y y).mpr (Or.inl rfl)⟩
          (fun d => (hay d).mp) (fun d => (hp2y d).mp) hq

/-- If no wing is left. -/
theorem no_wing {st : Strategy} {withZ : Bool} (hst : (st = .xyWing ∧ withZ = false) ∨ (st = .xyzWing ∧ withZ = true))
    (hn : ∀ x, ¬ Pattern.Matches Q st x) {a p1 p2 c0 : Fin 81} {x y z : Digit} (s1 : Pattern.Sees a p1)
    (s2 : Pattern.Sees a p2) (hxy : x ≠ y) (hxz : x ≠ z) (hyz : y ≠ z) (c1 : ∀ d, Q p1 d ↔ d = x ∨ d = z)
    (c2 : ∀ d, Q p2 d ↔ d = y ∨ d = z) (ca : ∀ d, Q a d ↔ d = x ∨ d = y ∨ (withZ = true ∧ d = z))
    (t1 : Pattern.Sees c0 p1) (t2 : Pattern.Sees c0 p2) (ta : withZ = true → Pattern.Sees c0 a) : ¬ Q c0 z := by
  classical
  intro hq
  have hpp : p1 ≠ p2 := by
    rintro rfl
    rcases (c2 x).mp ((c1 x).mpr (Or.inl rfl)) with h | h
    · exact hxy h
    · exact hxz h
  obtain ⟨ps, e1⟩ := bits_exists 128 {p1.val, p2.val} fun i hi => by
    rw [Finset.mem_insert, Finset.mem_singleton] at hi
    omega
  obtain ⟨ds, e2⟩ := bits_exists 16 ((Finset.univ.filter (fun d : Digit => Q a d)).image Fin.val) fun i hi => by
    obtain ⟨d, -, rfl⟩ := Finset.mem_image.mp hi
    have := d.isLt
    omega
  obtain ⟨l, hl⟩ := lists_of Q (fun c d => d = z ∧ Pattern.Sees c p1 ∧ Pattern.Sees c p2 ∧ (withZ = true → Pattern.Sees c a))
    (c := c0) (d := z) ⟨rfl, t1, t2, ta⟩ hq
  have hw : Pattern.Wing Q withZ a ds ps l := by
    refine ⟨p1, p2, x, y, z, hpp, fun i => ?_, s1, s2, hxy, hxz, hyz, c1, c2, ca, fun d => ?_, hl⟩
    · unfold Pattern.Has
      rw [e1, Finset.mem_insert, Finset.mem_singleton]
    · unfold Pattern.Has
      rw [e2, Finset.mem_image]
      constructor
      · rintro ⟨d', hd', he⟩
        rw [← Fin.ext he]
        exact (Finset.mem_filter.mp hd').2
      · exact fun hd => ⟨d, Finset.mem_filter.mpr ⟨Finset.mem_univ d, hd⟩, rfl⟩
  rcases hst with ⟨rfl, rfl⟩ | ⟨rfl, rfl⟩
  · exact hn (.wing a ds ps l) hw
  · exact hn (.wing a ds ps l) hw

theorem persist_wing (ht : Solved t) (hP : Live t F P) (hQ : Live t F' Q) (hle : ∀ c d, Q c d → P c d) {withZ : Bool}
    (h1 : ∀ x, ¬ Pattern.Matches Q .nakedSingles x) (h2 : withZ = true → ∀ x, ¬ Pattern.Matches Q .nakedPairs x)
    (h3 : ∀ x, ¬ Pattern.Matches Q .xyWing x) (h4 : withZ = true → ∀ x, ¬ Pattern.Matches Q .xyzWing x) {a : Fin 81}
    {hd : DigitSet} {ps : Pos.Cells} {l : List Candidate} (h : Pattern.Wing P withZ a hd ps l) :
    ∀ e ∈ l, ¬ Q e.cell e.digit := by
  obtain ⟨p1, p2, x, y, z, -, -, s1, s2, hxy, hxz, hyz, c1, c2, ca, -, -, hl⟩ := h
  rintro ⟨c0, d0⟩ he hq
  obtain ⟨⟨hd0, t1, t2, ta⟩, -⟩ := (hl c0 d0).mp he
  have hd0 : d0 = z := hd0
  subst hd0
  have ca' : ∀ d, P a d ↔ d = y ∨ d = x ∨ (withZ = true ∧ d = d0) := fun d => by
    rw [ca]
    constructor
    · rintro (h | h | h)
      · exact Or.inr (Or.inl h)
      · exact Or.inl h
      · exact Or.inr (Or.inr h)
    · rintro (h | h | h)
      · exact Or.inr (Or.inl h)
      · exact Or.inl h
      · exact Or.inr (Or.inr h)
  have f1 := pincer_open ht hP hQ hle h1 h2 s1 s2 hyz c1 c2 ca hq t1 t2 ta
  have f2 := pincer_open ht hP hQ hle h1 h2 s2 s1 hxz c2 c1 ca' hq t2 t1 ta
  have q1 := hQ.both h1 f1 (d := x) (e := d0) fun d hd => (c1 d).mp (hle _ _ hd)
  have q2 := hQ.both h1 f2 (d := y) (e := d0) fun d hd => (c2 d).mp (hle _ _ hd)
  have fa : ¬ F' a := by
    intro hf
    rcases (ca _).mp (hP.own a (hP.empty a x ((ca x).mpr (Or.inl rfl)))) with h | h | ⟨hz, h⟩
    · exact hQ.seen p1 a x hf s1.2 ((q1 x).mpr (Or.inl rfl)) h
    · exact hQ.seen p2 a y hf s2.2 ((q2 y).mpr (Or.inl rfl)) h
    · exact hQ.seen c0 a d0 hf (sees_symm (ta hz)).2 hq h
  have hsub : ∀ d, Q a d → d = x ∨ d = y ∨ (withZ = true ∧ d = d0) := fun d hd => (ca d).mp (hle _ _ hd)
  by_cases hz : withZ = true ∧ Q a d0
  · obtain ⟨hz, hqz⟩ := hz
    by_cases hx : Q a x
    · by_cases hy : Q a y
      · refine no_wing (Or.inr ⟨rfl, rfl⟩) (h4 hz) s1 s2 hxy hxz hyz q1 q2 (fun d => ⟨fun hd => ?_, ?_⟩) t1 t2
          (fun _ => ta hz) hq
        · rcases hsub d hd with h | h | h
          · exact Or.inl h
          · exact Or.inr (Or.inl h)
          · exact Or.inr (Or.inr ⟨rfl, h.2⟩)
        · rintro (rfl | rfl | ⟨-, rfl⟩)
          · exact hx
          · exact hy
          · exact hqz
      · refine no_pair (h2 hz) s1 (ta hz) t1 hxz ⟨x, hx⟩ ⟨x, (q1 x).mpr (Or.inl rfl)⟩ (fun d hd => ?_)
          (fun d => (q1 d).mp) hq
        rcases hsub d hd with h | h | h
        · exact Or.inl h
        · exact absurd (h ▸ hd) hy
        · exact Or.inr h.2
    · refine no_pair (h2 hz) s2 (ta hz) t2 hyz ⟨d0, hqz⟩ ⟨y, (q2 y).mpr (Or.inl rfl)⟩ (fun d hd => ?_)
        (fun d => (q2 d).mp) hq
      rcases hsub d hd with h | h | h
      · exact absurd (h ▸ hd) hx
      · exact Or.inl h
      · exact Or.inr h.2
  · have qa := hQ.both h1 fa (d := x) (e := y) fun d hd => by
      rcases hsub d hd with h | h | h
      · exact Or.inl h
      · exact Or.inr h
      · exact absurd ⟨h.1, h.2 ▸ hd⟩ hz
    refine no_wing (withZ := false) (Or.inl ⟨rfl, rfl⟩) h3 s1 s2 hxy hxz hyz q1 q2 (fun d => ?_) t1 t2 (fun h => absurd h (by decide)) hq
    rw [qa d]
    constructor
    · rintro (h | h)
      · exact Or.inl h
      · exact Or.inr (Or.inl h)
    · rintro (h | h | h)
      · exact Or.inl h
      · exact Or.inr h
      · exact absurd h.1 (by decide)

/-- What a pattern says holds in every later state in which the strategy, the simpler ones and the singles find nothing. -/
theorem persist (ht : Solved t) (hP : Live t F P) (hQ : Live t F' Q) (hle : ∀ c d, Q c d → P c d) {N : Strategy → Prop}
    (hN : ∀ st, N st → ∀ x, ¬ Pattern.Matches Q st x) (h1 : N .nakedSingles) (h2 : N .hiddenSingles)
    (hcl : ∀ st, N st → ∀ st' ∈ simpler st, N st') {st : Strategy} (hst : N st) {x : Deduction (List Candidate)}
    (hx : Pattern.Matches P st x) :
    (∀ e, Pattern.entry x = some e → F' e.cell) ∧ ∀ e ∈ Pattern.removed x, ¬ Q e.cell e.digit := by
  have naked : ∀ n h ps ds l, (∀ m, 2 ≤ m → m ≤ n → ∀ ps ds l, ¬ Pattern.NakedSubset Q m (h : Fin 27).val ps ds l) →
      Pattern.NakedSubset P n h.val ps ds l → ∀ e ∈ l, ¬ Q e.cell e.digit := fun n h ps ds l hm hs =>
    persist_nakedSubset ht hP hQ hle (hN _ h1) hm hs
  have hidden : ∀ n h ps ds l, (∀ m, 2 ≤ m → m ≤ n → ∀ ps ds l, ¬ Pattern.HiddenSubset Q m (h : Fin 27).val ps ds l) →
      Pattern.HiddenSubset P n h.val ps ds l → ∀ e ∈ l, ¬ Q e.cell e.digit := fun n h ps ds l hm hs =>
    persist_hiddenSubset ht hP hQ hle (hN _ h2) hm hs
  have fish : ∀ n digit ls ps l, (∀ m, 2 ≤ m → m ≤ n → ∀ ls ps l, ¬ Pattern.BasicFish Q m digit ls ps l) →
      Pattern.BasicFish P n digit ls ps l → ∀ e ∈ l, ¬ Q e.cell e.digit := fun n digit ls ps l hm hs =>
    persist_fish ht hP hQ hle (hN _ h2) hm hs
  have np : N .nakedPairs → ∀ (h : Fin 27) ps ds l, ¬ Pattern.NakedSubset Q 2 h.val ps ds l :=
    fun h h' ps ds l hs => hN _ h (.subsets h' ps ds l) hs
  have nt : N .nakedTriples → ∀ (h : Fin 27) ps ds l, ¬ Pattern.NakedSubset Q 3 h.val ps ds l :=
    fun h h' ps ds l hs => hN _ h (.subsets h' ps ds l) hs
  have nq : N .nakedQuads → ∀ (h : Fin 27) ps ds l, ¬ Pattern.NakedSubset Q 4 h.val ps ds l :=
    fun h h' ps ds l hs => hN _ h (.subsets h' ps ds l) hs
  have hp : N .hiddenPairs → ∀ (h : Fin 27) ps ds l, ¬ Pattern.HiddenSubset Q 2 h.val ps ds l :=
    fun h h' ps ds l hs => hN _ h (.subsets h' ps ds l) hs
  have hht : N .hiddenTriples → ∀ (h : Fin 27) ps ds l, ¬ Pattern.HiddenSubset Q 3 h.val ps ds l :=
    fun h h' ps ds l hs => hN _ h (.subsets h' ps ds l) hs
  have hhq : N .hiddenQuads → ∀ (h : Fin 27) ps ds l, ¬ Pattern.HiddenSubset Q 4 h.val ps ds l :=
    fun h h' ps ds l hs => hN _ h (.subsets h' ps ds l) hs
  have f2 : N .xWing → ∀ d ls ps l, ¬ Pattern.BasicFish Q 2 d ls ps l :=
    fun h d ls ps l hs => hN _ h (.basicFish d ls ps l) hs
  have f3 : N .swordfish → ∀ d ls ps l, ¬ Pattern.BasicFish Q 3 d ls ps l :=
    fun h d ls ps l hs => hN _ h (.basicFish d ls ps l) hs
  have f4 : N .jellyfish → ∀ d ls ps l, ¬ Pattern.BasicFish Q 4 d ls ps l :=
    fun h d ls ps l hs => hN _ h (.basicFish d ls ps l) hs
  have sm : ∀ {m n : Nat}, 2 ≤ m → m ≤ n → n ≤ 4 → m = 2 ∨ m = 3 ∧ 3 ≤ n ∨ m = 4 ∧ 4 ≤ n := by omega
  cases st <;> cases x <;> first | exact hx.elim | skip
  case nakedSingles.nakedSingles e =>
    refine ⟨fun e' he' => ?_, fun e' he' => absurd he' List.not_mem_nil⟩
    cases he'
    exact persist_naked hP hQ hle (hN _ h1) hx
  case hiddenSingles.hiddenSingles e hh =>
    refine ⟨fun e' he' => ?_, fun e' he' => absurd he' List.not_mem_nil⟩
    cases he'
    have hlt : Pattern.houseNr hh < 27 := by cases hh <;> simp only [Pattern.houseNr] <;> omega
    exact persist_hidden ht hP hQ hle (hN _ h2) (h := ⟨_, hlt⟩) hx
  case lockedCandidates.lockedCandidates digit m ip l =>
    refine ⟨fun e' he' => absurd he' (by simp [Pattern.entry]), ?_⟩
    have hm := m.isLt
    have l1 : Pattern.miniLine m < 27 := by unfold Pattern.miniLine; split <;> omega
    have l2 : Pattern.miniBlock m < 27 := by unfold Pattern.miniBlock; split <;> omega
    cases ip with
    | true =>
      have hx : Pattern.Locked P digit (Pattern.miniBlock m) (Pattern.miniLine m) l := hx
      exact persist_locked ht hP hQ hle (hN _ hst) l2 (Or.inr ⟨rfl, rfl⟩) hx
    | false =>
      have hx : Pattern.Locked P digit (Pattern.miniLine m) (Pattern.miniBlock m) l := hx
      exact persist_locked ht hP hQ hle (hN _ hst) l1 (Or.inl ⟨rfl, rfl⟩) hx
  case nakedPairs.subsets h ps ds l =>
    refine ⟨fun e' he' => absurd he' (by simp [Pattern.entry]), naked 2 h ps ds l (fun m m2 mn => ?_) hx⟩
    obtain rfl : m = 2 := by omega
    exact np hst h
  case nakedTriples.subsets h ps ds l =>
    refine ⟨fun e' he' => absurd he' (by simp [Pattern.entry]), naked 3 h ps ds l (fun m m2 mn => ?_) hx⟩
    rcases sm m2 mn (by omega) with rfl | ⟨rfl, -⟩ | ⟨rfl, h4⟩
    · exact np (hcl _ hst _ (by simp [simpler])) h
    · exact nt hst h
    · omega
  case nakedQuads.subsets h ps ds l =>
    refine ⟨fun e' he' => absurd he' (by simp [Pattern.entry]), naked 4 h ps ds l (fun m m2 mn => ?_) hx⟩
    rcases sm m2 mn (by omega) with rfl | ⟨rfl, -⟩ | ⟨rfl, h4⟩
    · exact np (hcl _ hst _ (by simp [simpler])) h
    · exact nt (hcl _ hst _ (by simp [simpler])) h
    · exact nq hst h
  case hiddenPairs.subsets h ps ds l =>
    refine ⟨fun e' he' => absurd he' (by simp [Pattern.entry]), hidden 2 h ps ds l (fun m m2 mn => ?_) hx⟩
    obtain rfl : m = 2 := by omega
    exact hp hst h
  case hiddenTriples.subsets h ps ds l =>
    refine ⟨fun e' he' => absurd he' (by simp [Pattern.entry]), hidden 3 h ps ds l (fun m m2 mn => ?_) hx⟩
    rcases sm m2 mn (by omega) with rfl | ⟨rfl, -⟩ | ⟨rfl, h4⟩
    · exact hp (hcl _ hst _ (by simp [simpler])) h
    · exact hht hst h
    · omega
  case hiddenQuads.subsets h ps ds l =>
    refine ⟨fun e' he' => absurd he' (by simp [Pattern.entry]), hidden 4 h ps ds l (fun m m2 mn => ?_) hx⟩
    rcases sm m2 mn (by omega) with rfl | ⟨rfl, -⟩ | ⟨rfl, h4⟩
    · exact hp (hcl _ hst _ (by simp [simpler])) h
    · exact hht (hcl _ hst _ (by simp [simpler])) h
    · exact hhq hst h
  case xWing.basicFish digit ls ps l =>
    refine ⟨fun e' he' => absurd he' (by simp [Pattern.entry]), fish 2 digit ls ps l (fun m m2 mn => ?_) hx⟩
    obtain rfl : m = 2 := by omega
    exact f2 hst digit
  case swordfish.basicFish digit ls ps l =>
    refine ⟨fun e' he' => absurd he' (by simp [Pattern.entry]), fish 3 digit ls ps l (fun m m2 mn => ?_) hx⟩
    rcases sm m2 mn (by omega) with rfl | ⟨rfl, -⟩ | ⟨rfl, h4⟩
    · exact f2 (hcl _ hst _ (by simp [simpler])) digit
    · exact f3 hst digit
    · omega
  case jellyfish.basicFish digit ls ps l =>
    refine ⟨fun e' he' => absurd he' (by simp [Pattern.entry]), fish 4 digit ls ps l (fun m m2 mn => ?_) hx⟩
    rcases sm m2 mn (by omega) with rfl | ⟨rfl, -⟩ | ⟨rfl, h4⟩
    · exact f2 (hcl _ hst _ (by simp [simpler])) digit
    · exact f3 (hcl _ hst _ (by simp [simpler])) digit
    · exact f4 hst digit
  case xyWing.wing a hd ps l =>
    exact ⟨fun e' he' => absurd he' (by simp [Pattern.entry]), persist_wing ht hP hQ hle (hN _ h1)
      (fun h => absurd h (by decide)) (hN _ hst) (fun h => absurd h (by decide)) hx⟩
  case xyzWing.wing a hd ps l =>
    exact ⟨fun e' he' => absurd he' (by simp [Pattern.entry]), persist_wing ht hP hQ hle (hN _ h1)
      (fun _ => hN _ (hcl _ hst _ (by simp [simpler]))) (hN _ (hcl _ hst _ (by simp [simpler]))) (fun _ => hN _ hst) hx⟩

end Verif.Strat
