import Verif.Proofs.StratSubsets

/-! # The strategy solver: basic fish -/
namespace Verif.Strat

open Bitset Generator

theorem lca_eq : ∀ (l : Fin 18) (p : Fin 9), Pos.lineCellAt l p = Pos.houseCellAt (Pos.lineHouse l) p := by decide +kernel

/-- The lines of a direction: `0` rows, `9` columns. -/
def dirLine (dir : Fin 2) (i : Fin 9) : Fin 18 := ⟨9 * dir.val + i.val, by omega⟩

theorem dirLine_inj {dir : Fin 2} {i j : Fin 9} (h : dirLine dir i = dirLine dir j) : i = j := by
  have := congrArg Fin.val h
  simp only [dirLine] at this
  exact Fin.ext (by omega)

/-- Cells at the same position of parallel lines share a house and differ. -/
theorem cross : ∀ (dir : Fin 2) (p i j : Fin 9), i ≠ j →
    Pos.lineCellAt (dirLine dir i) p ≠ Pos.lineCellAt (dirLine dir j) p ∧
    SameHouse (Pos.lineCellAt (dirLine dir i) p) (Pos.lineCellAt (dirLine dir j) p) := by decide +kernel

/-- All lines of a direction. -/
def dirLines (dir : Fin 2) : LineSet := if dir = 0 then allRows else allCols

theorem dirLines_bit : ∀ (dir : Fin 2) (l : Fin 18), (dirLines dir).getLsbD l.val = true ↔ ∃ i, l = dirLine dir i := by
  decide +kernel

theorem dirLines_fits (dir : Fin 2) : Fits 18 (dirLines dir) := by
  have : ∀ (dir : Fin 2) (i : Fin 32), (dirLines dir).getLsbD i.val = true → i.val < 18 := by decide +kernel
  intro i hi
  exact this dir ⟨i, BitVec.lt_of_getLsbD hi⟩ hi

/-- What a combination of lines satisfies. -/
structure FishAcc (hp : HousePoss) (digit : Digit) (dir : Fin 2) (a : LineSet × PosSet) : Prop where
  fits1 : Fits 18 a.1
  fits2 : Fits 9 a.2
  dir : ∀ l : Fin 18, a.1.getLsbD l.val = true → ∃ i, l = dirLine dir i
  poss : ∀ l : Fin 18, a.1.getLsbD l.val = true → hp[Pos.lineHouse l][digit] ≠ 0#16 ∧
    ∀ i, hp[Pos.lineHouse l][digit].getLsbD i = true → a.2.getLsbD i = true

theorem asLineSet_ok {p : PosSet} (h : Fits 9 p) : asLineSet p = .ok p := by
  unfold asLineSet fromBits
  have hle : decide (p ≤ ALL 16 9) = true := decide_eq_true ((le_ALL_iff (by omega) (by omega)).2 (fits_iff.mp h))
  rw [hle]
  rfl

theorem fishStep_post {hp : HousePoss} (hf : ∀ (h : Fin 27) (d : Digit), Fits 9 hp[h][d]) (digit : Digit) (goal : UInt8)
    (dir : Fin 2) (a : LineSet × PosSet) (l : Fin 18) (hl : ∃ i, l = dirLine dir i) (ha : FishAcc hp digit dir a) :
    Res.Post (fishStep hp digit goal a l) (fun r => ∀ a', r = some a' → FishAcc hp digit dir a') False := by
  unfold fishStep
  dsimp only
  rw [asLineSet_ok (hf _ _), Res.ok_bind]
  split
  · intro a' h'; cases h'
  · rename_i hne
    rw [not_or] at hne
    have hne0 : hp[Pos.lineHouse l][digit] ≠ 0#16 := by
      intro h0
      apply hne.1
      rw [h0]
      decide +kernel
    intro a' h'
    cases h'
    refine ⟨ha.fits1.union (fits_asSet (by omega) l.isLt), ha.fits2.union (hf _ _), ?_, ?_⟩
    · intro l' hl'
      simp only [bit_union, Bool.or_eq_true] at hl'
      rcases hl' with h | h
      · exact ha.dir l' h
      · rw [bit_asSet (by omega)] at h
        rw [← Fin.ext h]
        exact hl
    · intro l' hl'
      simp only [bit_union, Bool.or_eq_true] at hl' ⊢
      rcases hl' with h | h
      · exact ⟨(ha.poss l' h).1, fun i hi => Or.inl ((ha.poss l' h).2 i hi)⟩
      · rw [bit_asSet (by omega)] at h
        have h := Fin.ext h
        subst h
        exact ⟨hne0, fun i hi => Or.inr hi⟩

theorem card_lines {hp : HousePoss} {digit : Digit} {dir : Fin 2} {a : LineSet × PosSet} (ha : FishAcc hp digit dir a) :
    (elems a.1).card = (Finset.univ.filter (fun i : Fin 9 => a.1.getLsbD (dirLine dir i).val = true)).card := by
  rw [← Finset.card_image_of_injective (f := fun i : Fin 9 => (dirLine dir i).val) _
    (fun i j h => dirLine_inj (Fin.ext h))]
  congr 1
  ext x
  rw [mem_elems, Finset.mem_image]
  constructor
  · intro hx
    obtain ⟨i, hi⟩ := ha.dir ⟨x, ha.fits1 x hx⟩ hx
    have hi : x = (dirLine dir i).val := congrArg Fin.val hi
    exact ⟨i, by simp [← hi, hx], hi.symm⟩
  · rintro ⟨i, hi, rfl⟩
    simpa using hi

theorem fish_refuted {hp : HousePoss} {digit : Digit} {dir : Fin 2} {a : LineSet × PosSet} (ha : FishAcc hp digit dir a)
    (hcard : (elems a.2).card = (elems a.1).card) {t : Grid} (ht : Solved t) (hpt : HpOK hp t) {j q : Fin 9}
    (hj : ¬ a.1.getLsbD (dirLine dir j).val = true) (hq : a.2.getLsbD q.val = true) :
    t[Pos.lineCellAt (dirLine dir j) q] ≠ digit.get := by
  intro he
  rw [← card_fset ha.fits2, card_lines ha] at hcard
  choose g hg using fun i : Fin 9 => exists_pos ht (Pos.lineHouse (dirLine dir i)) digit
  have hinj : Function.Injective g := by
    intro x y e
    by_contra hne
    obtain ⟨h1, h2⟩ := cross dir (g x) x y hne
    refine ht.2 _ _ h1 h2 ?_
    have l1 := congrArg (fun c : Fin 81 => t[c]) (lca_eq (dirLine dir x) (g x))
    have l2 := congrArg (fun c : Fin 81 => t[c]) (lca_eq (dirLine dir y) (g x))
    have e2 := hg y
    rw [← e] at e2
    exact (l1.trans (hg x)).trans (l2.trans e2).symm
  have hgj : g j = q := dig_inj ht (Pos.lineHouse (dirLine dir j)) (by
    show dig t (Pos.houseCellAt _ (g j)) = dig t (Pos.houseCellAt _ q)
    have l1 := congrArg (fun c : Fin 81 => t[c]) (lca_eq (dirLine dir j) q)
    rw [dig_eq ht (hg j), dig_eq ht (l1.symm.trans he)])
  have := pigeon hinj (P := Finset.univ.filter (fun i : Fin 9 => a.1.getLsbD (dirLine dir i).val = true))
    (D := fset a.2 9) ?_ (by omega) (q := j) (by rw [mem_fset, hgj]; exact hq)
  · exact hj (by simpa using this)
  · intro i hi
    rw [mem_fset]
    have hi : a.1.getLsbD (dirLine dir i).val = true := by simpa using hi
    obtain ⟨h1, h2⟩ := ha.poss _ hi
    rcases hpt (Pos.lineHouse (dirLine dir i)) digit (g i) (hg i) with h3 | h3
    · exact absurd h3 h1
    · exact h2 _ h3

theorem contains_single {a : DigitSet} {d : Digit} : contains a (asSet 16 d.val) = a.getLsbD d.val := by
  unfold contains
  rw [Bool.eq_iff_iff, beq_iff_eq]
  constructor
  · intro h
    have := congrArg (fun x => x.getLsbD d.val) h
    rw [bit_inter, (bit_asSet (w := 16) (by omega)).mpr rfl] at this
    simpa using this
  · intro h
    apply BitVec.eq_of_getLsbD_eq
    intro i _
    rw [bit_inter]
    by_cases hi : (asSet 16 d.val).getLsbD i = true
    · rw [hi]
      rw [bit_asSet (by omega)] at hi
      subst hi
      simpa using h
    · rw [Bool.not_eq_true] at hi
      rw [hi]; simp

/-- The conflicts of a fish. -/
theorem onFish_eq {cp : Vector DigitSet 81} (digit : Digit) (dir : Fin 2) (s : Solver) {a : LineSet × PosSet}
    (hf2 : Fits 9 a.2) : ∃ l : List Candidate,
    onFish cp (dirLines dir) digit s a.1 a.2 = .ok (s.enterConflicts l (fun rg => .basicFish digit a.1 a.2 rg)) ∧
    ∀ e, e ∈ l ↔ ∃ j q : Fin 9, ¬ a.1.getLsbD (dirLine dir j).val = true ∧
      a.2.getLsbD q.val = true ∧ e.cell = Pos.lineCellAt (dirLine dir j) q ∧ e.digit = digit ∧
      cp[e.cell].getLsbD digit.val = true := by
  unfold onFish
  rw [items_eq (by omega) (by omega) (dirLines_fits dir).without, Res.ok_bind,
    flatMapM_ok (g := fun line => (mems 9 a.2).map (fun pos => Pos.lineCellAt line pos)) _
      (fun d _ => by rw [items_eq (by omega) (by omega) hf2, Res.ok_bind]), Res.ok_bind]
  dsimp only
  refine ⟨_, rfl, fun e => ?_⟩
  rw [List.mem_map]
  constructor
  · rintro ⟨c, hc, rfl⟩
    rw [List.mem_filter, List.mem_flatMap, contains_single] at hc
    obtain ⟨⟨l, hl, hc⟩, hb⟩ := hc
    obtain ⟨q, hq, rfl⟩ := List.mem_map.mp hc
    rw [mem_mems] at hq hl
    rw [bit_without, Bool.and_eq_true, dirLines_bit] at hl
    obtain ⟨⟨j, rfl⟩, hl⟩ := hl
    exact ⟨j, q, by simpa using hl, hq, rfl, rfl, hb⟩
  · rintro ⟨j, q, hj, hq, he, hd, hb⟩
    refine ⟨e.cell, ?_, by rw [← hd]⟩
    rw [List.mem_filter, List.mem_flatMap, contains_single]
    refine ⟨⟨dirLine dir j, ?_, List.mem_map.mpr ⟨q, mem_mems.mpr hq, he.symm⟩⟩, hb⟩
    rw [mem_mems, bit_without, Bool.and_eq_true, dirLines_bit]
    exact ⟨⟨j, rfl⟩, by simpa using hj⟩

theorem onFish_post {P : Candidate → Prop} {Q : Deduction (List Candidate) → Prop} {cp : Vector DigitSet 81}
    (digit : Digit) (dir : Fin 2) (s : Solver) {a : LineSet × PosSet} (hf2 : Fits 9 a.2)
    (hP : ∀ (j q : Fin 9), ¬ a.1.getLsbD (dirLine dir j).val = true → a.2.getLsbD q.val = true →
      cp[Pos.lineCellAt (dirLine dir j) q].getLsbD digit.val = true → P ⟨Pos.lineCellAt (dirLine dir j) q, digit⟩)
    (hQ : ∀ l : List Candidate, l ≠ [] → (∀ e, e ∈ l ↔ ∃ j q : Fin 9, ¬ a.1.getLsbD (dirLine dir j).val = true ∧
      a.2.getLsbD q.val = true ∧ e.cell = Pos.lineCellAt (dirLine dir j) q ∧ e.digit = digit ∧
      cp[e.cell].getLsbD digit.val = true) → Q (.basicFish digit a.1 a.2 l)) :
    Res.Post (onFish cp (dirLines dir) digit s a.1 a.2) (fun r => Ext P Q s r.1) False := by
  obtain ⟨l, e1, hmem⟩ := onFish_eq (cp := cp) digit dir s hf2
  rw [e1]
  refine (enterConflicts_ext s (fun l => .basicFish digit a.1 a.2 l) (slice_with fun rg elim => rfl) (fun _ => rfl)
    ?_ ?_).1
  · intro e he
    rw [hmem] at he
    obtain ⟨j, q, hj, hq, he, hd, hb⟩ := he
    obtain ⟨c, d⟩ := e
    dsimp only at he hd
    subst he hd
    exact hP j q hj hq hb
  · intro hn
    exact hQ _ hn hmem

theorem len_eq_iff' {w : Nat} (hw : w ≤ 128) {a : BitVec w} {size : UInt8} : len a = size ↔ (elems a).card = size.toNat := by
  rw [← len_eq_card hw, UInt8.toNat_inj]

theorem fishWalk_post {P : Candidate → Prop} {Q : Deduction (List Candidate) → Prop} {cp : Vector DigitSet 81}
    {hp : HousePoss} (hf : ∀ (h : Fin 27) (d : Digit), Fits 9 hp[h][d]) (size : UInt8) (stop : Bool) (digit : Digit)
    (dir : Fin 2) (s0 s : Solver) (hs : Ext P Q s0 s)
    (hP : ∀ (a : LineSet × PosSet), FishAcc hp digit dir a → (elems a.1).card = size.toNat →
      (elems a.2).card = size.toNat →
      ∀ (j q : Fin 9), ¬ a.1.getLsbD (dirLine dir j).val = true → a.2.getLsbD q.val = true →
      cp[Pos.lineCellAt (dirLine dir j) q].getLsbD digit.val = true → P ⟨Pos.lineCellAt (dirLine dir j) q, digit⟩)
    (hQ : ∀ (a : LineSet × PosSet), FishAcc hp digit dir a → (elems a.1).card = size.toNat →
      (elems a.2).card = size.toNat →
      ∀ l : List Candidate, l ≠ [] → (∀ e, e ∈ l ↔ ∃ j q : Fin 9, ¬ a.1.getLsbD (dirLine dir j).val = true ∧
      a.2.getLsbD q.val = true ∧ e.cell = Pos.lineCellAt (dirLine dir j) q ∧ e.digit = digit ∧
      cp[e.cell].getLsbD digit.val = true) → Q (.basicFish digit a.1 a.2 l)) :
    Res.Post (walk (fishVisit cp (dirLines dir) digit size stop) (fishStep hp digit size) (mems 18 (dirLines dir))
      (NONE 32, NONE 16) s) (fun r => Ext P Q s0 r.1) False := by
  refine walk_post (Ext P Q s0) (FishAcc hp digit dir) _ ?_
    (fun a x hx ha => fishStep_post hf digit size dir a x ((dirLines_bit dir x).mp (mem_mems.mp hx)) ha) _ s
    ⟨fits_none, fits_none, fun p hp => absurd hp (by simp [bit_none]), fun p hp => absurd hp (by simp [bit_none])⟩ hs
  intro a s ha hs
  unfold fishVisit
  split
  · rename_i h1
    split
    · exact hs
    · rename_i h2
      rw [ne_eq, not_not] at h2
      rw [len_eq_iff' (by omega)] at h1 h2
      refine Res.Post.bind (onFish_post digit dir s ha.fits2 (hP a ha h1 h2) (hQ a ha h1 h2)) ?_
      rintro ⟨s1, found⟩ h1
      show Res.Post (if found = true then _ else _) _ _
      split <;> exact hs.trans h1
  · exact hs

/-- The strategy of a fish, by size. -/
def fishStrategy (n : Nat) : Option Strategy :=
  match n with
  | 2 => some .xWing
  | 3 => some .swordfish
  | 4 => some .jellyfish
  | _ => none

theorem dirLine_house : ∀ (dir : Fin 2) (i : Fin 9), (Pos.lineHouse (dirLine dir i)).val = (dirLine dir i).val := by
  decide +kernel

theorem dir_exists {dir : Fin 2} {l : Nat} (h1 : 9 * dir.val ≤ l) (h2 : l < 9 * dir.val + 9) :
    ∃ i, l = (dirLine dir i).val :=
  ⟨⟨l - 9 * dir.val, by omega⟩, by simp only [dirLine]; omega⟩

theorem fish_search {s : Solver} (hf : ∀ (h : Fin 27) (d : Digit), Fits 9 s.hp[h][d]) (hrem : Removed s)
    {size : UInt8} {st : Strategy} (hst : fishStrategy size.toNat = some st) (stop : Bool) :
    Res.Post (forUntil (fun s' (digit : Digit) =>
      forUntil (fun s' (lines : LineSet) => do
        let l ← items 18 lines
        walk (fishVisit s.cp lines digit size stop) (fishStep s.hp digit size) l (NONE 32, NONE 16) s')
      [allRows, allCols] s') (List.finRange 9) s) (fun r => Ext (NewElim s) (DedOf st s.cp s.hp) s r.1) False := by
  refine forUntil_post (Ext (NewElim s) (DedOf st s.cp s.hp) s) _ s (Ext.refl s) ?_
  intro s' digit _ hs'
  refine forUntil_post (Ext (NewElim s) (DedOf st s.cp s.hp) s) _ s' hs' ?_
  intro s'' lines hl hs''
  have hdir : ∃ dir, lines = dirLines dir := by
    rcases List.mem_cons.mp hl with rfl | hl
    · exact ⟨0, rfl⟩
    · rw [List.mem_singleton] at hl
      exact ⟨1, hl⟩
  obtain ⟨dir, rfl⟩ := hdir
  rw [items_eq (by omega) (by omega) (dirLines_fits dir), Res.ok_bind]
  refine fishWalk_post hf size stop digit dir s s'' hs'' ?_ ?_
  · intro a ha h1 h2 j q hj hq hb
    exact ⟨hrem.notMem hb, fun t ht hpt => fish_refuted ha (by rw [h1, h2]) ht.solved hpt hj hq,
      Or.inl (ne_zero_iff.mpr ⟨_, hb⟩)⟩
  · intro a ha h1 h2 l hl hmem
    have hm : HpCp s.cp s.hp → Pattern.BasicFish (Cands s.cp) size.toNat digit a.1 a.2 l := by
      intro hag
      refine ⟨h1, h2, fun p hp => ha.fits2 p (has_iff.mp hp), 9 * dir.val, by omega, ?_, ?_, hl, ?_⟩
      · intro x hx
        rw [has_iff] at hx
        obtain ⟨i, hi⟩ := ha.dir ⟨x, ha.fits1 x hx⟩ hx
        have := congrArg Fin.val hi
        simp only [dirLine] at this
        omega
      · intro x hx
        rw [has_iff] at hx
        obtain ⟨i, hi⟩ := ha.dir ⟨x, ha.fits1 x hx⟩ hx
        have hi : x = (dirLine dir i).val := congrArg Fin.val hi
        subst hi
        obtain ⟨g1, g2⟩ := ha.poss _ hx
        rw [← dirLine_house]
        constructor
        · obtain ⟨p, hp⟩ := ne_zero_iff.mp g1
          exact ⟨_, (hca_inHouse _ ⟨p, hf _ _ p hp⟩).1, (hag _ digit ⟨p, hf _ _ p hp⟩).mp hp⟩
        · intro c hc hb
          obtain ⟨p, rfl, hpos⟩ := inHouse_hca hc
          rw [hpos]
          exact has_iff.mpr (g2 _ ((hag _ digit p).mpr hb))
      · intro c d
        rw [hmem]
        constructor
        · rintro ⟨j, q, hj, hq, hc, hd, hb⟩
          dsimp only at hc hd
          subst hc hd
          refine ⟨⟨rfl, (dirLine dir j).val, ?_, ?_, fun h => hj (has_iff.mp h), ?_⟩, hb⟩
          · simp only [dirLine]; omega
          · simp only [dirLine]; omega
          · rw [← dirLine_house, lca_eq]
            refine ⟨(hca_inHouse _ q).1, ?_⟩
            rw [(hca_inHouse _ q).2]
            exact has_iff.mpr hq
        · rintro ⟨⟨rfl, x, hx1, hx2, hx3, hc, hp⟩, hb⟩
          obtain ⟨j, rfl⟩ := dir_exists hx1 hx2
          rw [← dirLine_house] at hc hp
          obtain ⟨p, rfl, hpos⟩ := inHouse_hca hc
          rw [hpos] at hp
          exact ⟨j, p, fun h => hx3 (has_iff.mpr h), has_iff.mp hp, (lca_eq _ _).symm, rfl, hb⟩
    unfold fishStrategy at hst
    have hlen : (len a.2).toNat = size.toNat := by rw [len_eq_card (by omega), h2]
    refine ⟨?_, rfl, ?_⟩
    · unfold Deduction.strategy
      dsimp only
      rw [hlen]
      split at hst <;> simp_all
    · intro hag
      split at hst
      · rename_i hsz; rw [hsz] at hm; cases hst; exact hm (hag rfl)
      · rename_i hsz; rw [hsz] at hm; cases hst; exact hm (hag rfl)
      · rename_i hsz; rw [hsz] at hm; cases hst; exact hm (hag rfl)
      · cases hst

end Verif.Strat
