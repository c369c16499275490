import Verif.Proofs.Confluence
import Verif.Proofs.Equivalence

/-!
# Patterns under transformations of the board
-/
namespace Verif.Strat

open Verif Verif.Bitset

/-- A map of cells and digits that maps houses to houses, with the rows either to rows or to columns. -/
structure Iso where
  cell : Equiv.Perm (Fin 81)
  digit : Equiv.Perm Digit
  house : Fin 27 → Fin 27
  inHouse : ∀ (h : Fin 27) (c : Fin 81), Pattern.InHouse (house h) (cell c) ↔ Pattern.InHouse h c
  flip : Bool
  row : ∀ h : Fin 27, h.val < 9 → (bif flip then 9 else 0) ≤ (house h).val ∧ (house h).val < (bif flip then 9 else 0) + 9
  col : ∀ h : Fin 27, 9 ≤ h.val → h.val < 18 →
    (bif flip then 0 else 9) ≤ (house h).val ∧ (house h).val < (bif flip then 0 else 9) + 9
  block : ∀ h : Fin 27, 18 ≤ h.val → 18 ≤ (house h).val

namespace Iso

/-- No change. -/
def refl : Iso where
  cell := Equiv.refl _
  digit := Equiv.refl _
  house h := h
  inHouse _ _ := Iff.rfl
  flip := false
  row h h9 := ⟨Nat.zero_le _, by simpa using h9⟩
  col h h9 h18 := ⟨h9, h18⟩
  block _ h18 := h18

variable (I : Iso) {Q : Fin 81 → Digit → Prop}

theorem house_ext : ∀ h h' : Fin 27, (∀ c : Fin 81, Pattern.InHouse h c ↔ Pattern.InHouse h' c) → h = h' := by
  decide +kernel

theorem house_inj {h h' : Fin 27} (e : I.house h = I.house h') : h = h' :=
  house_ext h h' fun c => by rw [← I.inHouse h, ← I.inHouse h', e]

theorem house_surj (h' : Fin 27) : ∃ h, I.house h = h' :=
  Finite.injective_iff_surjective.mp (fun _ _ e => I.house_inj e) h'

theorem same_iff (c c' : Fin 81) : SameHouse c c' ↔ ∃ h : Fin 27, Pattern.InHouse h c ∧ Pattern.InHouse h c' := by
  constructor
  · have hr : rowOf c < 9 := by unfold rowOf; omega
    have hc : colOf c < 9 := by unfold colOf; omega
    have hb : blockOf c < 9 := by unfold blockOf rowOf colOf; omega
    rintro (h | h | h)
    · refine ⟨⟨rowOf c, by omega⟩, ?_, ?_⟩ <;> unfold Pattern.InHouse <;> simp only [hr, if_true]
      exact h.symm
    · refine ⟨⟨9 + colOf c, by omega⟩, ?_, ?_⟩ <;> unfold Pattern.InHouse <;>
        rw [if_neg (by simp), if_pos (by simp only; omega)] <;> simp only <;> omega
    · refine ⟨⟨18 + blockOf c, by omega⟩, ?_, ?_⟩ <;> unfold Pattern.InHouse <;>
        rw [if_neg (by simp only; omega), if_neg (by simp only; omega)] <;> simp only <;> omega
  · rintro ⟨h, h1, h2⟩
    exact h1.same h2

theorem same (c c' : Fin 81) : SameHouse (I.cell c) (I.cell c') ↔ SameHouse c c' := by
  rw [same_iff, same_iff]
  constructor
  · rintro ⟨h, h1, h2⟩
    obtain ⟨h, rfl⟩ := I.house_surj h
    exact ⟨h, (I.inHouse _ _).mp h1, (I.inHouse _ _).mp h2⟩
  · rintro ⟨h, h1, h2⟩
    exact ⟨I.house h, (I.inHouse _ _).mpr h1, (I.inHouse _ _).mpr h2⟩

theorem sees (c c' : Fin 81) : Pattern.Sees (I.cell c) (I.cell c') ↔ Pattern.Sees c c' := by
  unfold Pattern.Sees
  rw [I.same, Ne, EmbeddingLike.apply_eq_iff_eq]

/-- The image of a candidate. -/
def cand (e : Candidate) : Candidate := ⟨I.cell e.cell, I.digit e.digit⟩

theorem lists {l : List Candidate} {R R' : Fin 81 → Digit → Prop}
    (h : Pattern.Lists l (fun c d => Q (I.cell c) (I.digit d)) R)
    (hR : ∀ c d, R' (I.cell c) (I.digit d) ↔ R c d) : Pattern.Lists (l.map I.cand) Q R' := by
  refine ⟨by simpa using h.1, fun c d => ?_⟩
  obtain ⟨c, rfl⟩ := I.cell.surjective c
  obtain ⟨d, rfl⟩ := I.digit.surjective d
  rw [hR, ← h.2 c d, List.mem_map]
  constructor
  · rintro ⟨⟨c', d'⟩, he, heq⟩
    unfold cand at heq
    simp only [Candidate.mk.injEq, EmbeddingLike.apply_eq_iff_eq] at heq
    obtain ⟨rfl, rfl⟩ := heq
    exact he
  · exact fun he => ⟨_, he, rfl⟩

/-- The digits as numbers. -/
def digitNr (i : Nat) : Nat := if h : i < 9 then (I.digit ⟨i, h⟩).val else i

theorem digitNr_val (d : Digit) : I.digitNr d.val = (I.digit d).val := by
  unfold digitNr
  rw [dif_pos d.isLt]

theorem digits {ds : DigitSet} (hd : ∀ d, Pattern.Has ds d → d < 9) : ∃ ds' : DigitSet,
    (elems ds').card = (elems ds).card ∧ (∀ d, Pattern.Has ds' d → d < 9) ∧
    ∀ d : Digit, Pattern.Has ds' (I.digit d).val ↔ Pattern.Has ds d.val := by
  classical
  have key : ∀ i ∈ elems ds, ∃ d : Digit, d.val = i := fun i hi => ⟨⟨i, hd i hi⟩, rfl⟩
  obtain ⟨ds', h⟩ := bits_exists 16 ((elems ds).image I.digitNr) (by
    intro i hi
    obtain ⟨j, hj, rfl⟩ := Finset.mem_image.mp hi
    obtain ⟨d, rfl⟩ := key j hj
    rw [I.digitNr_val]
    have := (I.digit d).isLt
    omega)
  have mem : ∀ i, Pattern.Has ds' i ↔ ∃ j ∈ elems ds, I.digitNr j = i := by
    intro i
    unfold Pattern.Has
    rw [h, Finset.mem_image]
  refine ⟨ds', ?_, fun i hi => ?_, fun d => ?_⟩
  · rw [h]
    refine Finset.card_image_of_injOn fun i hi j hj e => ?_
    obtain ⟨d, rfl⟩ := key i hi
    obtain ⟨d', rfl⟩ := key j hj
    rw [I.digitNr_val, I.digitNr_val] at e
    rw [I.digit.injective (Fin.ext e)]
  · obtain ⟨j, hj, rfl⟩ := (mem i).mp hi
    obtain ⟨d, rfl⟩ := key j hj
    rw [I.digitNr_val]
    exact (I.digit d).isLt
  · rw [mem]
    constructor
    · rintro ⟨j, hj, e⟩
      obtain ⟨d', rfl⟩ := key j hj
      rw [I.digitNr_val] at e
      rw [← I.digit.injective (Fin.ext e)]
      exact hj
    · exact fun h => ⟨_, h, I.digitNr_val d⟩

theorem positions (h : Fin 27) {ps : PosSet} (hp : ∀ p, Pattern.Has ps p → p < 9) : ∃ ps' : PosSet,
    (elems ps').card = (elems ps).card ∧ (∀ p, Pattern.Has ps' p → p < 9) ∧
    ∀ c, Pattern.InHouse h c → (Pattern.Has ps' (Pattern.posIn (I.house h) (I.cell c)) ↔ Pattern.Has ps (Pattern.posIn h c)) := by
  classical
  have key : ∀ p ∈ elems ps, ∃ c, Pattern.InHouse h c ∧ Pattern.posIn h c = p := fun p hp' => ⟨_, cellIn_spec h (hp p hp')⟩
  let f : Nat → Nat := fun p => Pattern.posIn (I.house h) (I.cell (cellIn h p))
  have hf : ∀ c, Pattern.InHouse h c → f (Pattern.posIn h c) = Pattern.posIn (I.house h) (I.cell c) := by
    intro c hc
    show Pattern.posIn (I.house h) (I.cell (cellIn h (Pattern.posIn h c))) = _
    rw [cellIn_posIn hc]
  have hinj : ∀ c c', Pattern.InHouse h c → Pattern.InHouse h c' →
      Pattern.posIn (I.house h) (I.cell c) = Pattern.posIn (I.house h) (I.cell c') → c = c' := by
    intro c c' hc hc' e
    exact I.cell.injective (posIn_inj _ _ _ ((I.inHouse _ _).mpr hc) ((I.inHouse _ _).mpr hc') e)
  obtain ⟨ps', h'⟩ := bits_exists 16 ((elems ps).image f) (by
    intro i hi
    obtain ⟨j, hj, rfl⟩ := Finset.mem_image.mp hi
    have := posIn_lt (I.house h) (I.cell (cellIn h j))
    show Pattern.posIn (I.house h) (I.cell (cellIn h j)) < 16
    omega)
  have mem : ∀ i, Pattern.Has ps' i ↔ ∃ j ∈ elems ps, f j = i := by
    intro i
    unfold Pattern.Has
    rw [h', Finset.mem_image]
  refine ⟨ps', ?_, fun i hi => ?_, fun c hc => ?_⟩
  · rw [h']
    refine Finset.card_image_of_injOn fun i hi j hj e => ?_
    obtain ⟨c, hc, rfl⟩ := key i hi
    obtain ⟨c', hc', rfl⟩ := key j hj
    have e : f (Pattern.posIn h c) = f (Pattern.posIn h c') := e
    rw [hf c hc, hf c' hc'] at e
    rw [hinj c c' hc hc' e]
  · obtain ⟨j, hj, rfl⟩ := (mem i).mp hi
    exact posIn_lt _ _
  · rw [mem]
    constructor
    · rintro ⟨j, hj, e⟩
      obtain ⟨c', hc', rfl⟩ := key j hj
      rw [hf c' hc'] at e
      rw [← hinj c' c hc' hc e]
      exact hj
    · exact fun h => ⟨_, h, hf c hc⟩

theorem nakedSubset {n : Nat} {h : Fin 27} {ps : PosSet} {ds : DigitSet} {l : List Candidate}
    (hs : Pattern.NakedSubset (fun c d => Q (I.cell c) (I.digit d)) n h ps ds l) :
    ∃ ps' ds' l', Pattern.NakedSubset Q n (I.house h) ps' ds' l' := by
  obtain ⟨a1, a2, a3, a4, a5, a6⟩ := hs
  obtain ⟨ps', p1, p2, p3⟩ := I.positions h a3
  obtain ⟨ds', d1, d2, d3⟩ := I.digits a4
  refine ⟨ps', ds', l.map I.cand, by rw [p1, a1], by rw [d1, a2], p2, d2, fun c hc hp => ?_, I.lists a6 fun c d => ?_⟩
  · obtain ⟨c, rfl⟩ := I.cell.surjective c
    have hc := (I.inHouse _ _).mp hc
    obtain ⟨⟨d, hd⟩, h2⟩ := a5 c hc ((p3 c hc).mp hp)
    refine ⟨⟨_, hd⟩, fun d hd => ?_⟩
    obtain ⟨d, rfl⟩ := I.digit.surjective d
    exact (d3 d).mpr (h2 d hd)
  · rw [I.inHouse, d3]
    constructor
    · rintro ⟨h1, h2, h3⟩
      exact ⟨h1, fun hp => h2 ((p3 c h1).mpr hp), h3⟩
    · rintro ⟨h1, h2, h3⟩
      exact ⟨h1, fun hp => h2 ((p3 c h1).mp hp), h3⟩

theorem hiddenSubset {n : Nat} {h : Fin 27} {ps : PosSet} {ds : DigitSet} {l : List Candidate}
    (hs : Pattern.HiddenSubset (fun c d => Q (I.cell c) (I.digit d)) n h ps ds l) :
    ∃ ps' ds' l', Pattern.HiddenSubset Q n (I.house h) ps' ds' l' := by
  obtain ⟨a1, a2, a3, a4, a5, a6⟩ := hs
  obtain ⟨ps', p1, p2, p3⟩ := I.positions h a3
  obtain ⟨ds', d1, d2, d3⟩ := I.digits a4
  refine ⟨ps', ds', l.map I.cand, by rw [p1, a1], by rw [d1, a2], p2, d2, fun d hd => ?_, I.lists a6 fun c d => ?_⟩
  · obtain ⟨d, rfl⟩ := I.digit.surjective d
    obtain ⟨⟨c, hc, hq⟩, h2⟩ := a5 d ((d3 d).mp hd)
    refine ⟨⟨_, (I.inHouse _ _).mpr hc, hq⟩, fun c hc hq => ?_⟩
    obtain ⟨c, rfl⟩ := I.cell.surjective c
    have hc := (I.inHouse _ _).mp hc
    exact (p3 c hc).mpr (h2 c hc hq)
  · rw [I.inHouse, d3]
    constructor
    · rintro ⟨h1, h2, h3⟩
      exact ⟨h1, (p3 c h1).mp h2, h3⟩
    · rintro ⟨h1, h2, h3⟩
      exact ⟨h1, (p3 c h1).mpr h2, h3⟩

/-- The lines of one direction. -/
theorem lines {dir : Nat} (hdir : dir = 0 ∨ dir = 9) : ∃ dir', (dir' = 0 ∨ dir' = 9) ∧
    (∀ h : Fin 27, (dir ≤ h.val ∧ h.val < dir + 9) ↔ (dir' ≤ (I.house h).val ∧ (I.house h).val < dir' + 9)) ∧
    (∀ h : Fin 27, (9 - dir ≤ h.val ∧ h.val < 9 - dir + 9) ↔
      (9 - dir' ≤ (I.house h).val ∧ (I.house h).val < 9 - dir' + 9)) := by
  have hr := I.row
  have hc := I.col
  have hb := I.block
  refine ⟨if dir = 0 then (bif I.flip then 9 else 0) else (bif I.flip then 0 else 9), ?_, fun h => ?_, fun h => ?_⟩
  · cases I.flip <;> rcases hdir with rfl | rfl <;> simp
  · have := hr h; have := hc h; have := hb h
    generalize I.flip = b at *
    cases b <;> rcases hdir with rfl | rfl <;> simp only [cond_true, cond_false, if_true] at * <;> simp <;> omega
  · have := hr h; have := hc h; have := hb h
    generalize I.flip = b at *
    cases b <;> rcases hdir with rfl | rfl <;> simp only [cond_true, cond_false, if_true] at * <;> simp <;> omega

theorem posIn_cross {dir : Nat} (hdir : dir = 0 ∨ dir = 9) {l : Nat} (h1 : dir ≤ l) (h2 : l < dir + 9) (c : Fin 81) (p : Nat)
    (hp : p < 9) : Pattern.posIn l c = p ↔ Pattern.InHouse (9 - dir + p) c := by
  unfold Pattern.posIn Pattern.InHouse
  rcases hdir with rfl | rfl
  · rw [if_pos (by omega), if_neg (by omega), if_pos (by omega)]
    simp
  · rw [if_neg (by omega), if_pos (by omega), if_pos (by omega)]
    simp

theorem basicFish {n : Nat} {digit : Digit} {ls : LineSet} {ps : PosSet} {l : List Candidate}
    (hs : Pattern.BasicFish (fun c d => Q (I.cell c) (I.digit d)) n digit ls ps l) :
    ∃ ls' ps' l', Pattern.BasicFish Q n (I.digit digit) ls' ps' l' := by
  classical
  obtain ⟨a1, a2, a3, dir, hdir, a4, a5, a6⟩ := hs
  obtain ⟨dir', hdir', b1, b2⟩ := I.lines hdir
  have d9 : dir ≤ 9 := by omega
  have d9' : dir' ≤ 9 := by omega
  -- houses and positions as numbers
  let f : Nat → Nat := fun i => if h : i < 27 then (I.house ⟨i, h⟩).val else i
  have hf : ∀ h : Fin 27, f h.val = (I.house h).val := fun h => by show (if _ : _ then _ else _) = _; rw [dif_pos h.isLt]
  have finj : ∀ i j, i < 27 → j < 27 → f i = f j → i = j := by
    intro i j hi hj e
    have e : f (⟨i, hi⟩ : Fin 27).val = f (⟨j, hj⟩ : Fin 27).val := e
    rw [hf, hf] at e
    exact congrArg Fin.val (I.house_inj (Fin.ext e))
  have fin : ∀ i, i < 27 → ∀ c, Pattern.InHouse (f i) (I.cell c) ↔ Pattern.InHouse i c := by
    intro i hi c
    have := I.inHouse ⟨i, hi⟩ c
    rwa [← hf] at this
  have fdir : ∀ i, dir ≤ i → i < dir + 9 → dir' ≤ f i ∧ f i < dir' + 9 := by
    intro i h1 h2
    have := (b1 ⟨i, by omega⟩).mp ⟨h1, h2⟩
    rwa [← hf] at this
  have fcross : ∀ p, p < 9 → 9 - dir' ≤ f (9 - dir + p) ∧ f (9 - dir + p) < 9 - dir' + 9 := by
    intro p hp
    have := (b2 ⟨9 - dir + p, by omega⟩).mp ⟨by simp, by simp only; omega⟩
    rwa [← hf] at this
  let k : Nat → Nat := fun p => f (9 - dir + p) - (9 - dir')
  have klt : ∀ p, p < 9 → k p < 9 := by
    intro p hp
    have := fcross p hp
    show f (9 - dir + p) - (9 - dir') < 9
    omega
  have kinj : ∀ p q, p < 9 → q < 9 → k p = k q → p = q := by
    intro p q hp hq e
    have h1 := fcross p hp
    have h2 := fcross q hq
    have e : f (9 - dir + p) - (9 - dir') = f (9 - dir + q) - (9 - dir') := e
    have := finj (9 - dir + p) (9 - dir + q) (by omega) (by omega) (by omega)
    omega
  have kpos : ∀ i, dir ≤ i → i < dir + 9 → ∀ c, Pattern.posIn (f i) (I.cell c) = k (Pattern.posIn i c) := by
    intro i h1 h2 c
    have hp : Pattern.posIn i c < 9 := posIn_lt ⟨i, by omega⟩ c
    have h3 := (posIn_cross hdir h1 h2 c _ hp).mp rfl
    have h4 := fdir i h1 h2
    refine (posIn_cross hdir' h4.1 h4.2 (I.cell c) _ (klt _ hp)).mpr ?_
    have h5 := fcross _ hp
    have : 9 - dir' + k (Pattern.posIn i c) = f (9 - dir + Pattern.posIn i c) := by
      show 9 - dir' + (f (9 - dir + Pattern.posIn i c) - (9 - dir')) = _
      omega
    rw [this, fin _ (by omega)]
    exact h3
  have l27 : ∀ i ∈ elems ls, i < 27 := fun i hi => by have := a4 i hi; omega
  obtain ⟨ls', hls⟩ := bits_exists 32 ((elems ls).image f) (by
    intro i hi
    obtain ⟨j, hj, rfl⟩ := Finset.mem_image.mp hi
    have := a4 j hj
    have := fdir j this.1 this.2
    omega)
  obtain ⟨ps', hps⟩ := bits_exists 16 ((elems ps).image k) (by
    intro i hi
    obtain ⟨j, hj, rfl⟩ := Finset.mem_image.mp hi
    have := klt j (a3 j hj)
    omega)
  have memL : ∀ i, i < 27 → (Pattern.Has ls' (f i) ↔ Pattern.Has ls i) := by
    intro i hi
    unfold Pattern.Has
    rw [hls, Finset.mem_image]
    constructor
    · rintro ⟨j, hj, e⟩
      rw [← finj j i (l27 j hj) hi e]
      exact hj
    · exact fun h => ⟨i, h, rfl⟩
  have memP : ∀ p, p < 9 → (Pattern.Has ps' (k p) ↔ Pattern.Has ps p) := by
    intro p hp
    unfold Pattern.Has
    rw [hps, Finset.mem_image]
    constructor
    · rintro ⟨j, hj, e⟩
      rw [← kinj j p (a3 j hj) hp e]
      exact hj
    · exact fun h => ⟨p, h, rfl⟩
  have fsurj : ∀ i, dir' ≤ i → i < dir' + 9 → ∃ j, dir ≤ j ∧ j < dir + 9 ∧ f j = i := by
    intro i h1 h2
    obtain ⟨h, e⟩ := I.house_surj ⟨i, by omega⟩
    have e' : (I.house h).val = i := congrArg Fin.val e
    have := (b1 h).mpr ⟨by omega, by omega⟩
    exact ⟨h.val, this.1, this.2, by rw [hf, e']⟩
  refine ⟨ls', ps', l.map I.cand, ?_, ?_, fun p hp => ?_, dir', hdir', fun i hi => ?_, fun i hi => ?_, I.lists a6 fun c d => ?_⟩
  · rw [hls, ← a1]
    exact Finset.card_image_of_injOn fun i hi j hj e => finj i j (l27 i hi) (l27 j hj) e
  · rw [hps, ← a2]
    exact Finset.card_image_of_injOn fun i hi j hj e => kinj i j (a3 i hi) (a3 j hj) e
  · unfold Pattern.Has at hp
    rw [hps] at hp
    obtain ⟨j, hj, rfl⟩ := Finset.mem_image.mp hp
    exact klt j (a3 j hj)
  · unfold Pattern.Has at hi
    rw [hls] at hi
    obtain ⟨j, hj, rfl⟩ := Finset.mem_image.mp hi
    have := a4 j hj
    exact fdir j this.1 this.2
  · unfold Pattern.Has at hi
    rw [hls] at hi
    obtain ⟨j, hj, rfl⟩ := Finset.mem_image.mp hi
    obtain ⟨j1, j2⟩ := a4 j hj
    obtain ⟨⟨c, hc, hq⟩, h2⟩ := a5 j hj
    refine ⟨⟨I.cell c, (fin j (by omega) c).mpr hc, hq⟩, fun c hc hq => ?_⟩
    obtain ⟨c, rfl⟩ := I.cell.surjective c
    rw [kpos j j1 j2 c, memP _ (posIn_lt ⟨j, by omega⟩ c)]
    exact h2 c ((fin j (by omega) c).mp hc) hq
  · rw [EmbeddingLike.apply_eq_iff_eq]
    refine and_congr_right fun _ => ?_
    constructor
    · rintro ⟨i, h1, h2, h3, h4, h5⟩
      obtain ⟨j, j1, j2, rfl⟩ := fsurj i h1 h2
      rw [kpos j j1 j2 c, memP _ (posIn_lt ⟨j, by omega⟩ c)] at h5
      exact ⟨j, j1, j2, fun h => h3 ((memL j (by omega)).mpr h), (fin j (by omega) c).mp h4, h5⟩
    · rintro ⟨j, j1, j2, h3, h4, h5⟩
      have h6 := fdir j j1 j2
      refine ⟨f j, h6.1, h6.2, fun h => h3 ((memL j (by omega)).mp h), (fin j (by omega) c).mpr h4, ?_⟩
      rw [kpos j j1 j2 c, memP _ (posIn_lt ⟨j, by omega⟩ c)]
      exact h5

theorem wing {withZ : Bool} {a : Fin 81} {hd : DigitSet} {ps : Pos.Cells} {l : List Candidate}
    (hs : Pattern.Wing (fun c d => Q (I.cell c) (I.digit d)) withZ a hd ps l) :
    ∃ hd' ps' l', Pattern.Wing Q withZ (I.cell a) hd' ps' l' := by
  classical
  obtain ⟨p1, p2, x, y, z, h1, h2, h3, h4, h5, h6, h7, h8, h9, h10, h11, h12⟩ := hs
  obtain ⟨ps', hps⟩ := bits_exists 128 {(I.cell p1).val, (I.cell p2).val} (by
    intro i hi
    simp only [Finset.mem_insert, Finset.mem_singleton] at hi
    have := (I.cell p1).isLt
    have := (I.cell p2).isLt
    omega)
  obtain ⟨hd', hhd⟩ := bits_exists 16 ((Finset.univ.filter fun d : Digit => Q (I.cell a) d).image Fin.val) (by
    intro i hi
    obtain ⟨d, -, rfl⟩ := Finset.mem_image.mp hi
    have := d.isLt
    omega)
  have dg : ∀ {c : Fin 81} {R : Digit → Prop}, (∀ d, Q (I.cell c) (I.digit d) ↔ R d) →
      ∀ d, Q (I.cell c) d ↔ R (I.digit.symm d) := fun h d => by
    have := h (I.digit.symm d)
    rwa [Equiv.apply_symm_apply] at this
  have sw : ∀ d e : Digit, I.digit.symm d = e ↔ d = I.digit e := fun d e => Equiv.symm_apply_eq _
  refine ⟨hd', ps', l.map I.cand, I.cell p1, I.cell p2, I.digit x, I.digit y, I.digit z, ?_, fun i => ?_, (I.sees _ _).mpr h3,
    (I.sees _ _).mpr h4, ?_, ?_, ?_, fun d => ?_, fun d => ?_, fun d => ?_, fun d => ?_, I.lists h12 fun c d => ?_⟩
  · rwa [Ne, EmbeddingLike.apply_eq_iff_eq]
  · unfold Pattern.Has
    rw [hps, Finset.mem_insert, Finset.mem_singleton]
  · rwa [Ne, EmbeddingLike.apply_eq_iff_eq]
  · rwa [Ne, EmbeddingLike.apply_eq_iff_eq]
  · rwa [Ne, EmbeddingLike.apply_eq_iff_eq]
  · rw [dg h8 d, sw, sw]
  · rw [dg h9 d, sw, sw]
  · rw [dg h10 d, sw, sw, sw]
  · unfold Pattern.Has
    rw [hhd, Finset.mem_image]
    constructor
    · rintro ⟨d', hd', e⟩
      rw [← Fin.ext e]
      exact (Finset.mem_filter.mp hd').2
    · exact fun h => ⟨d, Finset.mem_filter.mpr ⟨Finset.mem_univ d, h⟩, rfl⟩
  · rw [EmbeddingLike.apply_eq_iff_eq, I.sees, I.sees, I.sees]

theorem mini_exists : ∀ l b : Fin 27, l.val < 18 → 18 ≤ b.val → (∃ c : Fin 81, Pattern.InHouse l c ∧ Pattern.InHouse b c) →
    ∃ m : Fin 54, Pattern.miniLine m = l.val ∧ Pattern.miniBlock m = b.val := by decide +kernel

theorem mini_lt : ∀ m : Fin 54, Pattern.miniLine m < 18 ∧ 18 ≤ Pattern.miniBlock m ∧ Pattern.miniBlock m < 27 := by decide +kernel

theorem house_type {n : Nat} (hn : n < 27) : ∃ h, Pattern.houseNr h = n := by
  by_cases h1 : n < 9
  · exact ⟨.row ⟨n, h1⟩, rfl⟩
  · by_cases h2 : n < 18
    · exact ⟨.col ⟨n - 9, by omega⟩, by simp only [Pattern.houseNr]; omega⟩
    · exact ⟨.block ⟨n - 18, by omega⟩, by simp only [Pattern.houseNr]; omega⟩

theorem house_line (h : Fin 27) (hl : h.val < 18) : (I.house h).val < 18 := by
  by_cases h9 : h.val < 9
  · have := I.row h h9
    generalize I.flip = b at this
    cases b <;> simp at this <;> omega
  · have := I.col h (by omega) hl
    generalize I.flip = b at this
    cases b <;> simp at this <;> omega

theorem locked {h1 h2 : Fin 27} {digit : Digit} {l : List Candidate}
    (h : Pattern.Locked (fun c d => Q (I.cell c) (I.digit d)) digit h1 h2 l) :
    Pattern.Locked Q (I.digit digit) (I.house h1) (I.house h2) (l.map I.cand) ∧
    ∃ c, Pattern.InHouse (I.house h1) c ∧ Pattern.InHouse (I.house h2) c := by
  obtain ⟨⟨c, hc, hq⟩, hall, hl⟩ := h
  refine ⟨⟨⟨I.cell c, (I.inHouse _ _).mpr hc, hq⟩, fun c hc hq => ?_, I.lists hl fun c d => ?_⟩,
    I.cell c, (I.inHouse _ _).mpr hc, (I.inHouse _ _).mpr (hall c hc hq)⟩
  · obtain ⟨c, rfl⟩ := I.cell.surjective c
    exact (I.inHouse _ _).mpr (hall c ((I.inHouse _ _).mp hc) hq)
  · rw [EmbeddingLike.apply_eq_iff_eq, I.inHouse, I.inHouse]

/-- A pattern in the candidates before the transformation is one after it. -/
theorem transport {st : Strategy} {x : Deduction (List Candidate)}
    (hx : Pattern.Matches (fun c d => Q (I.cell c) (I.digit d)) st x) : ∃ x', Pattern.Matches Q st x' := by
  cases st <;> cases x <;> try exact hx.elim
  case nakedSingles.nakedSingles e =>
    have hx : Pattern.NakedSingle (fun c d => Q (I.cell c) (I.digit d)) e := hx
    refine ⟨.nakedSingles (I.cand e), (?_ : Pattern.NakedSingle Q (I.cand e))⟩
    intro d
    obtain ⟨d, rfl⟩ := I.digit.surjective d
    show Q (I.cell e.cell) (I.digit d) ↔ I.digit d = I.digit e.digit
    rw [EmbeddingLike.apply_eq_iff_eq]
    exact hx d
  case hiddenSingles.hiddenSingles e h =>
    have hlt : Pattern.houseNr h < 27 := by cases h <;> simp only [Pattern.houseNr] <;> omega
    obtain ⟨h1, h2⟩ : Pattern.HiddenSingle (fun c d => Q (I.cell c) (I.digit d)) e (Pattern.houseNr h) := hx
    obtain ⟨h', e'⟩ := house_type (I.house ⟨Pattern.houseNr h, hlt⟩).isLt
    have hin := I.inHouse ⟨Pattern.houseNr h, hlt⟩
    rw [← e'] at hin
    refine ⟨.hiddenSingles (I.cand e) h', (⟨(hin _).mpr h1, ?_⟩ : Pattern.HiddenSingle Q (I.cand e) (Pattern.houseNr h'))⟩
    intro c hc
    obtain ⟨c, rfl⟩ := I.cell.surjective c
    show Q (I.cell c) (I.digit e.digit) ↔ I.cell c = I.cell e.cell
    rw [EmbeddingLike.apply_eq_iff_eq]
    exact h2 c ((hin c).mp hc)
  case lockedCandidates.lockedCandidates digit m ip l =>
    obtain ⟨m1, m2, m3⟩ := mini_lt m
    cases ip with
    | true =>
      have hx : Pattern.Locked (fun c d => Q (I.cell c) (I.digit d)) digit (⟨Pattern.miniBlock m, m3⟩ : Fin 27)
        (⟨Pattern.miniLine m, by omega⟩ : Fin 27) l := hx
      obtain ⟨h1, c, c1, c2⟩ := I.locked hx
      obtain ⟨m', e1, e2⟩ := mini_exists _ _ (I.house_line _ m1) (I.block _ m2) ⟨c, c2, c1⟩
      rw [← e1, ← e2] at h1
      exact ⟨.lockedCandidates (I.digit digit) m' true _, h1⟩
    | false =>
      have hx : Pattern.Locked (fun c d => Q (I.cell c) (I.digit d)) digit (⟨Pattern.miniLine m, by omega⟩ : Fin 27)
        (⟨Pattern.miniBlock m, m3⟩ : Fin 27) l := hx
      obtain ⟨h1, c, c1, c2⟩ := I.locked hx
      obtain ⟨m', e1, e2⟩ := mini_exists _ _ (I.house_line _ m1) (I.block _ m2) ⟨c, c1, c2⟩
      rw [← e1, ← e2] at h1
      exact ⟨.lockedCandidates (I.digit digit) m' false _, h1⟩
  case nakedPairs.subsets h ps ds l => obtain ⟨ps', ds', l', h'⟩ := I.nakedSubset hx; exact ⟨.subsets _ ps' ds' l', h'⟩
  case nakedTriples.subsets h ps ds l => obtain ⟨ps', ds', l', h'⟩ := I.nakedSubset hx; exact ⟨.subsets _ ps' ds' l', h'⟩
  case nakedQuads.subsets h ps ds l => obtain ⟨ps', ds', l', h'⟩ := I.nakedSubset hx; exact ⟨.subsets _ ps' ds' l', h'⟩
  case hiddenPairs.subsets h ps ds l => obtain ⟨ps', ds', l', h'⟩ := I.hiddenSubset hx; exact ⟨.subsets _ ps' ds' l', h'⟩
  case hiddenTriples.subsets h ps ds l => obtain ⟨ps', ds', l', h'⟩ := I.hiddenSubset hx; exact ⟨.subsets _ ps' ds' l', h'⟩
  case hiddenQuads.subsets h ps ds l => obtain ⟨ps', ds', l', h'⟩ := I.hiddenSubset hx; exact ⟨.subsets _ ps' ds' l', h'⟩
  case xWing.basicFish digit ls ps l => obtain ⟨ls', ps', l', h'⟩ := I.basicFish hx; exact ⟨.basicFish _ ls' ps' l', h'⟩
  case swordfish.basicFish digit ls ps l => obtain ⟨ls', ps', l', h'⟩ := I.basicFish hx; exact ⟨.basicFish _ ls' ps' l', h'⟩
  case jellyfish.basicFish digit ls ps l => obtain ⟨ls', ps', l', h'⟩ := I.basicFish hx; exact ⟨.basicFish _ ls' ps' l', h'⟩
  case xyWing.wing a hd ps l => obtain ⟨hd', ps', l', h'⟩ := I.wing hx; exact ⟨.wing _ hd' ps' l', h'⟩
  case xyzWing.wing a hd ps l => obtain ⟨hd', ps', l', h'⟩ := I.wing hx; exact ⟨.wing _ hd' ps' l', h'⟩

end Iso

end Verif.Strat
