import Verif.Model.RawCanonical
import Verif.Proofs.RawArith
import Verif.Props.Shuffle
import Verif.Props.Canonical

/-!
# C87: shuffling and canonicalizing on machine integers
-/
namespace Verif.Props

open Verif Sudoku Raw

variable {debug : Bool} {α : Type} {n : Nat}

/-- The same number. -/
private def Num (a : Nat) (b : UInt8) : Prop := a = b.toNat

private theorem lt_of {a k : UInt8} (h : decide (a.toNat < k.toNat) = true) : decide (a < k) = true :=
  decide_eq_true (UInt8.lt_iff_toNat_lt.mpr (of_decide_eq_true h))

private theorem swapCells_sim : ∀ (l : List (Nat × Nat)) (v : Vector α n),
    Sim Eq (Canon.swapCells l v) (RawCanon.swapCells debug l v) := by
  intro l
  induction l with
  | nil => intro v; exact .ok rfl
  | cons x l ih =>
    obtain ⟨i, j⟩ := x
    intro v
    rw [Canon.swapCells, RawCanon.swapCells]
    by_cases hij : i = j
    · rw [if_pos hij]; exact .panic
    · rw [if_neg hij, decide_eq_true hij, debugAssert, Bool.or_true, Res.assert_true, Res.ok_bind]
      by_cases h1 : i < n
      · rw [dif_pos h1, dif_pos h1]
        by_cases h2 : j < n
        · rw [dif_pos h2, dif_pos h2]; exact ih _
        · rw [dif_neg h2]; exact .panic
      · rw [dif_neg h1]; exact .panic

private theorem same_iff {a b : UInt8} : a.toNat = b.toNat ↔ a = b := UInt8.toNat_inj

private theorem swapRows_sim (v : Vector α n) (a b : UInt8) :
    Sim Eq (Canon.swapRows v a.toNat b.toNat) (RawCanon.swapRows debug v a b) := by
  unfold Canon.swapRows RawCanon.swapRows
  simp only [same_iff]
  split
  · exact .ok rfl
  · refine .assert (lt_of (k := 9)) fun h1 => .assert (lt_of (k := 9)) fun h2 => ?_
    have h1 := of_decide_eq_true h1
    have h2 := of_decide_eq_true h2
    refine .mulR (by simp; omega) fun e1 => .mulR (by simp; omega) fun e2 => ?_
    rw [e1, e2]
    exact swapCells_sim _ _

private theorem swapCols_sim (v : Vector α n) (a b : UInt8) :
    Sim Eq (Canon.swapCols v a.toNat b.toNat) (RawCanon.swapCols debug v a b) := by
  unfold Canon.swapCols RawCanon.swapCols
  simp only [same_iff]
  split
  · exact .ok rfl
  · exact .assert (lt_of (k := 9)) fun h1 => .assert (lt_of (k := 9)) fun h2 => swapCells_sim _ _

private theorem swapColsInBand_sim (v : Vector α n) (a b : UInt8) :
    Sim Eq (Canon.swapColsInBand v a.toNat b.toNat) (RawCanon.swapColsInBand debug v a b) := by
  unfold Canon.swapColsInBand RawCanon.swapColsInBand
  simp only [same_iff]
  split
  · exact .ok rfl
  · exact .assert (lt_of (k := 9)) fun h1 => .assert (lt_of (k := 9)) fun h2 => swapCells_sim _ _

private theorem range3 : List.Forall₂ (fun x y => Num x y ∧ x < 3) (List.range 3) [0, 1, 2] := by
  simp [List.range, List.range.loop, Num]

private theorem range6 : List.Forall₂ (fun x y => Num x y ∧ x < 6) (List.range 6) [0, 1, 2, 3, 4, 5] := by
  simp [List.range, List.range.loop, Num]

/-- Swapping three lines of two chutes. -/
private theorem chute_sim {f : Vector α n → Nat → Nat → Res (Vector α n)} {g : Vector α n → UInt8 → UInt8 → Res (Vector α n)}
    (hf : ∀ v a b, Sim Eq (f v a.toNat b.toNat) (g v a b)) (v : Vector α n) {a b : UInt8} (ha : a.toNat < 3)
    (hb : b.toNat < 3) :
    Sim Eq ((List.range 3).foldlM (fun v i => f v (a.toNat * 3 + i) (b.toNat * 3 + i)) v)
      ([0, 1, 2].foldlM (fun v i => do
        let x ← add debug (← mul debug a 3) i
        let y ← add debug (← mul debug b 3) i
        g v x y) v) := by
  refine Sim.foldlM (R := Eq) (Q := fun x y => Num x y ∧ x < 3) ?_ range3 _ _ rfl
  rintro v _ i j rfl ⟨rfl, hi⟩
  refine .mulR (by simp; omega) fun e1 => ?_
  have e1 : (a * 3).toNat = a.toNat * 3 := e1
  refine .addR (by omega) fun e2 => .mulR (by simp; omega) fun e3 => ?_
  have e3 : (b * 3).toNat = b.toNat * 3 := e3
  refine .addR (by omega) fun e4 => ?_
  rw [← e1, ← e3, ← e2, ← e4]
  exact hf _ _ _

private theorem swapStacks_sim (v : Vector α n) (a b : UInt8) :
    Sim Eq (Canon.swapStacks v a.toNat b.toNat) (RawCanon.swapStacks debug v a b) := by
  unfold Canon.swapStacks RawCanon.swapStacks
  simp only [same_iff]
  split
  · exact .ok rfl
  · exact .assert (lt_of (k := 3)) fun h1 => .assert (lt_of (k := 3)) fun h2 =>
      chute_sim swapCols_sim v (of_decide_eq_true h1) (of_decide_eq_true h2)

private theorem swapBands_sim (v : Vector α n) (a b : UInt8) :
    Sim Eq (Canon.swapBands v a.toNat b.toNat) (RawCanon.swapBands debug v a b) := by
  unfold Canon.swapBands RawCanon.swapBands
  simp only [same_iff]
  split
  · exact .ok rfl
  · exact .assert (lt_of (k := 3)) fun h1 => .assert (lt_of (k := 3)) fun h2 =>
      chute_sim swapRows_sim v (of_decide_eq_true h1) (of_decide_eq_true h2)

private theorem swapStackInBand_sim (v : Vector α n) (a b : UInt8) :
    Sim Eq (Canon.swapStackInBand v a.toNat b.toNat) (RawCanon.swapStackInBand debug v a b) := by
  unfold Canon.swapStackInBand RawCanon.swapStackInBand
  simp only [same_iff]
  split
  · exact .ok rfl
  · exact .assert (lt_of (k := 3)) fun h1 => .assert (lt_of (k := 3)) fun h2 =>
      chute_sim swapColsInBand_sim v (of_decide_eq_true h1) (of_decide_eq_true h2)

private theorem swapRowsInBand_sim (v : Vector α n) (a b : UInt8) :
    Sim Eq (Canon.swapRowsInBand v a.toNat b.toNat) (RawCanon.swapRowsInBand debug v a b) := by
  unfold Canon.swapRowsInBand RawCanon.swapRowsInBand
  exact .assert (lt_of (k := 3)) fun h1 => .assert (lt_of (k := 3)) fun h2 => swapRows_sim v a b

private theorem transpose_sim (v : Vector α n) : Sim Eq (Canon.transpose v) (RawCanon.transpose debug v) :=
  swapCells_sim _ _

/-- The same permutation, in range. -/
private def Perm (p : Canon.Permutation3) (q : RawCanon.Permutation3) : Prop :=
  p.choice3 = q.choice3.toNat ∧ p.choice2 = q.choice2.toNat ∧ p.choice3 < 3 ∧ p.choice2 < 2

private theorem fromChoices_sim (a b : UInt8) :
    Sim Perm (Canon.Permutation3.fromChoices a.toNat b.toNat) (RawCanon.Permutation3.fromChoices debug a b) := by
  unfold Canon.Permutation3.fromChoices RawCanon.Permutation3.fromChoices
  exact .assert (lt_of (k := 3)) fun h1 => .assert (lt_of (k := 2)) fun h2 =>
    .ok ⟨rfl, rfl, of_decide_eq_true h1, of_decide_eq_true h2⟩

private theorem new_sim (a : UInt8) : Sim Perm (Canon.Permutation3.new a.toNat) (RawCanon.Permutation3.new debug a) := by
  unfold Canon.Permutation3.new RawCanon.Permutation3.new
  refine .assert (lt_of (k := 6)) fun h => .ok ?_
  have h := of_decide_eq_true h
  refine ⟨(UInt8.toNat_mod a 3).symm, (UInt8.toNat_div a 3).symm, ?_, ?_⟩
  · show a.toNat % 3 < 3; omega
  · show a.toNat / 3 < 2; omega

private theorem permute_sim {β : Type} {f : β → Nat → Nat → Res β} {g : β → UInt8 → UInt8 → Res β}
    (hf : ∀ v a b, Sim Eq (f v a.toNat b.toNat) (g v a b)) (v : β) {p : Canon.Permutation3} {q : RawCanon.Permutation3}
    (h : Perm p q) {offset : UInt8} (ho : offset.toNat < 9) :
    Sim Eq (Canon.permute v p offset.toNat f) (RawCanon.permute debug v q offset g) := by
  obtain ⟨h1, h2, h3, h4⟩ := h
  unfold Canon.permute RawCanon.permute
  refine .addR (by omega) fun e1 => ?_
  rw [h1, ← e1]
  refine (hf _ _ _).bind fun v _ e => ?_
  subst e
  refine .addR (by simp; omega) fun e2 => ?_
  have e2 : (offset + 1).toNat = offset.toNat + 1 := e2
  refine .addR (by simp; omega) fun _ => .addR (by omega) fun e3 => ?_
  rw [h2, ← e2, ← e3]
  exact hf _ _ _

/-- The same permutations of the lines in three chutes. -/
private def Perms (p : Canon.ChuteLinePermutations) (q : RawCanon.ChuteLinePermutations) : Prop :=
  Perm p.p0 q.p0 ∧ Perm p.p1 q.p1 ∧ Perm p.p2 q.p2

private theorem chutes_sim {β : Type} {f : β → Nat → Nat → Res β} {g : β → UInt8 → UInt8 → Res β}
    (hf : ∀ v a b, Sim Eq (f v a.toNat b.toNat) (g v a b)) (v : β) {p : Canon.ChuteLinePermutations}
    {q : RawCanon.ChuteLinePermutations} (h : Perms p q) : Sim Eq (p.apply v f) (q.apply debug v g) := by
  obtain ⟨h0, h1, h2⟩ := h
  unfold Canon.ChuteLinePermutations.apply RawCanon.ChuteLinePermutations.apply
  refine .mulR (by decide) fun _ => (permute_sim hf v h0 (offset := 0) (by decide)).bind fun v _ e => ?_
  subst e
  refine .mulR (by decide) fun _ => (permute_sim hf v h1 (offset := 3) (by decide)).bind fun v _ e => ?_
  subst e
  exact .mulR (by decide) fun _ => permute_sim hf v h2 (offset := 6) (by decide)

/-- The same transformation. -/
private def Trans (t : Canon.Transformation) (u : RawCanon.Transformation) : Prop :=
  t.transpose = u.transpose ∧ Perm t.bandPermutation u.bandPermutation ∧ Perm t.stackPermutation u.stackPermutation ∧
    Perms t.rowPermutations u.rowPermutations ∧ Perms t.colPermutations u.colPermutations ∧
    t.digitRemapping = u.digitRemapping

private theorem transposeIf_sim (b : Bool) (g : Grid) : Sim Eq (if b then Canon.transpose g else .ok g)
    (if b then RawCanon.transpose debug g else .ok g) := by
  cases b
  · exact .ok rfl
  · exact transpose_sim g

private theorem apply_sim {t : Canon.Transformation} {u : RawCanon.Transformation} (h : Trans t u) (g : Grid) :
    Sim Eq (t.apply g) (u.apply debug g) := by
  obtain ⟨h1, h2, h3, h4, h5, h6⟩ := h
  unfold Canon.Transformation.apply RawCanon.Transformation.apply
  rw [h1, h6]
  refine (transposeIf_sim _ g).bind fun g _ e => ?_
  subst e
  refine (permute_sim swapBands_sim g h2 (offset := 0) (by decide)).bind fun g _ e => ?_
  subst e
  refine (permute_sim swapStacks_sim g h3 (offset := 0) (by decide)).bind fun g _ e => ?_
  subst e
  refine (chutes_sim swapCols_sim g h5).bind fun g _ e => ?_
  subst e
  refine (chutes_sim swapRows_sim g h4).bind fun g _ e => ?_
  subst e
  exact .refl _

private theorem draw_sim (a : Fin 6) :
    Sim Perm (Canon.Permutation3.new a) (RawCanon.Permutation3.new debug (UInt8.ofNat a)) := by
  have := new_sim (debug := debug) (UInt8.ofNat a)
  rwa [UInt8.toNat_ofNat', Nat.mod_eq_of_lt (by omega)] at this

private theorem random_sim (d : Canon.Draws) : Sim Trans (Canon.random d) (RawCanon.random debug d) := by
  unfold Canon.random RawCanon.random
  exact .bindEq fun digits => (draw_sim _).bind fun _ _ h1 => (draw_sim _).bind fun _ _ h2 =>
    (draw_sim _).bind fun _ _ h3 => (draw_sim _).bind fun _ _ h4 => (draw_sim _).bind fun _ _ h5 =>
    (draw_sim _).bind fun _ _ h6 => (draw_sim _).bind fun _ _ h7 => (draw_sim _).bind fun _ _ h8 =>
    .ok ⟨rfl, h1, h2, ⟨h3, h4, h5⟩, ⟨h6, h7, h8⟩, rfl⟩

/-! ## Canonicalizing -/

private def MinT (t : Canon.MinBandTransformation) (u : RawCanon.MinBandTransformation) : Prop :=
  t.band = u.band.toNat ∧ t.transposed = u.transposed ∧ Perm t.rowPermutation u.rowPermutation ∧
    Perm t.stackPermutation u.stackPermutation ∧ Perms t.colPermutations u.colPermutations ∧
    t.digitRemapping = u.digitRemapping

private def St (s : Canon.BandState) (u : RawCanon.BandState) : Prop :=
  s.minimum = u.minimum ∧ List.Forall₂ MinT s.transformations u.transformations

private def St2 (s : Canon.BandState × Vector UInt8 9) (u : RawCanon.BandState × Vector UInt8 9) : Prop :=
  St s.1 u.1 ∧ s.2 = u.2

private theorem forall₂_append {A B : Type} {R : A → B → Prop} {l l' : List A} {m m' : List B}
    (h : List.Forall₂ R l m) (h' : List.Forall₂ R l' m') : List.Forall₂ R (l ++ l') (m ++ m') := by
  induction h with
  | nil => exact h'
  | cons h _ ih => exact .cons h ih

private theorem lastBox_sim (bandNr : UInt8) (transposed : Bool) (firstBox : UInt8) {rp cp : Canon.Permutation3}
    {rp' cp' : RawCanon.Permutation3} (hr : Perm rp rp') (hc : Perm cp cp') (c1 c2 c3 : UInt8) (band : Vector UInt8 27)
    {st : Canon.BandState × Vector UInt8 9} {st' : RawCanon.BandState × Vector UInt8 9} (hs : St2 st st') (perm : UInt8) :
    Sim St2 (Canon.lastBoxStep bandNr.toNat transposed firstBox.toNat rp cp c1.toNat c2.toNat c3.toNat band st perm.toNat)
      (RawCanon.lastBoxStep debug bandNr transposed firstBox rp' cp' c1 c2 c3 band st' perm) := by
  obtain ⟨⟨s, ts⟩, m⟩ := st
  obtain ⟨⟨s', ts'⟩, m'⟩ := st'
  obtain ⟨⟨e1, hts⟩, e2⟩ := hs
  dsimp only at e1 e2 hts
  subst e1
  subst e2
  unfold Canon.lastBoxStep RawCanon.lastBoxStep
  refine (new_sim perm).bind fun p q hp => ?_
  refine (permute_sim swapColsInBand_sim band hp (offset := 6) (by decide)).bind fun band _ e => ?_
  subst e
  refine .bindEq fun m1 => .bindEq fun m2 => .bindEq fun m3 => .bindEq fun value => ?_
  dsimp only
  by_cases hgt : arrayCmp value s.toList = .gt
  · rw [if_pos hgt, if_pos hgt]
    exact .ok ⟨⟨rfl, hts⟩, rfl⟩
  · rw [if_neg hgt, if_neg hgt]
    refine Sim.bind (R := St) ?_ fun a b hab => ?_
    · by_cases hlt : arrayCmp value s.toList = .lt
      · rw [if_pos hlt, if_pos hlt]
        by_cases h16 : value.toArray.size = 16
        · rw [dif_pos h16, dif_pos h16]
          exact .ok ⟨rfl, .nil⟩
        · rw [dif_neg h16]
          exact .panic
      · rw [if_neg hlt, if_neg hlt]
        exact .ok ⟨rfl, hts⟩
    · refine (fromChoices_sim firstBox c1).bind fun sp sp' h1 => (fromChoices_sim c2 c3).bind fun k k' h2 => .ok ?_
      exact ⟨⟨hab.1, forall₂_append hab.2 (.cons ⟨rfl, rfl, hr, h1, ⟨hc, h2, hp⟩, rfl⟩ .nil)⟩, rfl⟩

private theorem secondBox_sim (bandNr : UInt8) (transposed : Bool) (firstBox : UInt8) {rp cp : Canon.Permutation3}
    {rp' cp' : RawCanon.Permutation3} (hr : Perm rp rp') (hc : Perm cp cp') (band : Vector UInt8 27)
    {st : Canon.BandState} {st' : RawCanon.BandState} (hs : St st st') :
    Sim St (Canon.secondBoxStep bandNr.toNat transposed firstBox.toNat rp cp band st)
      (RawCanon.secondBoxStep debug bandNr transposed firstBox rp' cp' band st') := by
  unfold Canon.secondBoxStep RawCanon.secondBoxStep
  dsimp only
  cases hpos : ((band.toList.drop 3).take 6).findIdx? (fun num => num == band[9]) with
  | none => exact .panic
  | some pos4 =>
    have h6 : pos4 < 6 := by
      have := (List.findIdx?_eq_some_iff_findIdx_eq.mp hpos).1
      have h2 : ((band.toList.drop 3).take 6).length ≤ 6 := List.length_take_le _ _
      omega
    have hq : (UInt8.ofNat pos4).toNat = pos4 := by
      rw [UInt8.toNat_ofNat']
      exact Nat.mod_eq_of_lt (by omega)
    dsimp only
    generalize UInt8.ofNat pos4 = q at hq
    subst hq
    have d3 : (q / 3).toNat = q.toNat / 3 := UInt8.toNat_div _ _
    have m3 : (q % 3).toNat = q.toNat % 3 := UInt8.toNat_mod _ _
    rw [← d3, ← m3]
    refine .addR (by simp; omega) fun e1 => ?_
    have e1 : (1 + q / 3).toNat = 1 + (q / 3).toNat := e1
    rw [← e1]
    refine (swapStackInBand_sim band 1 (1 + q / 3)).bind fun band _ e => ?_
    subst e
    refine .addR (by simp; omega) fun e2 => ?_
    have e2 : (3 + q % 3).toNat = 3 + (q % 3).toNat := e2
    rw [← e2]
    refine (swapColsInBand_sim band 3 (3 + q % 3)).bind fun band _ e => ?_
    subst e
    have hk : ∃ k : UInt8, (if band[4] ≠ band[10] then 1 else 0 : UInt8) = k ∧
        (if band[4] ≠ band[10] then 1 else 0 : Nat) = k.toNat ∧ k.toNat < 2 := by
      split
      · exact ⟨1, rfl, rfl, by decide⟩
      · exact ⟨0, rfl, rfl, by decide⟩
    obtain ⟨k, k1, k2, k3⟩ := hk
    generalize band[10] = digit5 at k1 k2 ⊢
    rw [k1, k2]
    refine .addR (by simp; omega) fun e3 => ?_
    have e3 : (4 + k).toNat = 4 + k.toNat := e3
    rw [← e3]
    refine (swapColsInBand_sim band 4 (4 + k)).bind fun band _ e => ?_
    subst e
    rw [← hs.1]
    by_cases h1 : band[4] ≠ digit5
    · rw [if_pos h1, if_pos h1]
      exact .ok hs
    · rw [if_neg h1, if_neg h1]
      by_cases h2 : st.minimum[0] = 6 ∧ band[11] ≠ band[5]
      · rw [if_pos h2, if_pos h2]
        exact .ok hs
      · rw [if_neg h2, if_neg h2]
        refine .bindEq fun mapping => ?_
        refine Sim.bind (R := St2) (Sim.foldlM (Q := fun x y => Num x y ∧ x < 6) ?_ range6 _ _ ⟨hs, rfl⟩) fun a b hab => ?_
        · rintro a b x y hab ⟨rfl, -⟩
          exact lastBox_sim bandNr transposed firstBox hr hc _ _ _ band hab y
        · exact .ok hab.1

private theorem findMinlexBand_sim (g : Grid) (bandNr : UInt8) (hb : bandNr.toNat < 3) (transposed : Bool)
    {st : Canon.BandState} {st' : RawCanon.BandState} (hs : St st st') :
    Sim St (Canon.findMinlexBand g bandNr.toNat transposed st) (RawCanon.findMinlexBand debug g bandNr transposed st') := by
  unfold Canon.findMinlexBand RawCanon.findMinlexBand
  refine .mulR (by simp; omega) fun e => ?_
  have e : (bandNr * 27).toNat = 27 * bandNr.toNat := by rw [e, Nat.mul_comm]; rfl
  rw [e]
  refine Sim.bind (R := Eq) ?_ fun band _ e => ?_
  · unfold Canon.getBand RawCanon.bandAt
    split
    · exact .ok rfl
    · exact .panic
  subst e
  refine Sim.foldlM (Q := fun x y => Num x y ∧ x < 3) ?_ range3 _ _ hs
  rintro st st' _ firstBox hs ⟨rfl, -⟩
  refine (swapStackInBand_sim band 0 firstBox).bind fun band _ e => ?_
  subst e
  refine Sim.foldlM (Q := fun x y => Num x y ∧ x < 6) ?_ range6 _ _ hs
  rintro st st' _ rp hs ⟨rfl, -⟩
  refine (new_sim rp).bind fun p p' hp => (permute_sim swapRowsInBand_sim band hp (offset := 0) (by decide)).bind
    fun band _ e => ?_
  subst e
  refine Sim.foldlM (Q := fun x y => Num x y ∧ x < 6) ?_ range6 _ _ hs
  rintro st st' _ cp hs ⟨rfl, -⟩
  refine (new_sim cp).bind fun q q' hq => (permute_sim swapColsInBand_sim band hq (offset := 0) (by decide)).bind
    fun band _ e => ?_
  subst e
  exact secondBox_sim bandNr transposed firstBox hp hq band hs

private theorem minByKey_eq {k : Nat → List UInt8} {k' : UInt8 → Res (List UInt8)} {m : Nat}
    (hk : ∀ a : UInt8, a.toNat ≤ m → k' a = .ok (k a.toNat)) :
    ∀ (l : List UInt8) (best : UInt8), (∀ a ∈ l, a.toNat ≤ m) → best.toNat ≤ m →
    ∃ r : UInt8, RawCanon.minByKey k' l best = .ok r ∧ Canon.minByKey k (l.map UInt8.toNat) best.toNat = r.toNat ∧
      r.toNat ≤ m := by
  intro l
  induction l with
  | nil => intro best _ hb; exact ⟨best, rfl, rfl, hb⟩
  | cons x l ih =>
    intro best hl hb
    rw [RawCanon.minByKey, List.map_cons, Canon.minByKey, hk _ hb, Res.ok_bind, hk _ (hl x List.mem_cons_self), Res.ok_bind]
    have hl' : ∀ a ∈ l, a.toNat ≤ m := fun a ha => hl a (List.mem_cons_of_mem _ ha)
    split
    · exact ih x hl' (hl x List.mem_cons_self)
    · exact ih best hl' hb

private theorem sortRows_sim (g : Grid) (bandNr : UInt8) :
    Sim (fun a b => a.1 = b.1 ∧ Perm a.2 b.2) (Canon.sortRows g bandNr.toNat) (RawCanon.sortRows debug g bandNr) := by
  unfold Canon.sortRows RawCanon.sortRows
  refine .bindEq fun band => ?_
  obtain ⟨r, e1, e2, h2⟩ := minByKey_eq (k := Canon.bandRow band)
    (k' := fun row => .ok (Canon.bandRow band row.toNat)) (m := 2) (fun _ _ => rfl) [1, 2] 0 (by decide) (by decide)
  have e2 : Canon.minByKey (Canon.bandRow band) [1, 2] 0 = r.toNat := e2
  rw [e1, Res.ok_bind]
  dsimp only
  rw [e2]
  refine (swapRowsInBand_sim band 0 r).bind fun band _ e => ?_
  subst e
  obtain ⟨r', e3, e4, h3⟩ := minByKey_eq (k := fun row => Canon.bandRow band (row + 1))
    (k' := fun row => do .ok (Canon.bandRow band (← add debug row 1).toNat)) (m := 1) (fun a ha => by
      rw [add_ok (by simp; omega), Res.ok_bind, toNat_add (by simp; omega)]
      rfl) [1] 0 (by decide) (by decide)
  have e4 : Canon.minByKey (fun row => Canon.bandRow band (row + 1)) [1] 0 = r'.toNat := e4
  rw [e3, Res.ok_bind, e4]
  refine .addR (by simp; omega) fun e5 => ?_
  have e5 : (1 + r').toNat = 1 + r'.toNat := e5
  rw [← e5]
  refine (swapRowsInBand_sim band 1 (1 + r')).bind fun band _ e => ?_
  subst e
  exact (fromChoices_sim r r').bind fun p q hp => .ok ⟨rfl, hp⟩

private theorem findMinimal_sim (sudoku : Grid) {t : Canon.MinBandTransformation} {u : RawCanon.MinBandTransformation}
    (h : MinT t u) : Sim (fun a b => a.1 = b.1 ∧ Trans a.2 b.2) (Canon.findMinimalForBand sudoku t)
      (RawCanon.findMinimalForBand debug sudoku u) := by
  obtain ⟨h1, h2, h3, h4, h5, h6⟩ := h
  unfold Canon.findMinimalForBand RawCanon.findMinimalForBand
  rw [h1, h2, h6]
  refine (transposeIf_sim _ sudoku).bind fun g _ e => ?_
  subst e
  refine (swapBands_sim g 0 u.band).bind fun g _ e => ?_
  subst e
  refine (permute_sim swapRows_sim g h3 (offset := 0) (by decide)).bind fun g _ e => ?_
  subst e
  refine (permute_sim swapStacks_sim g h4 (offset := 0) (by decide)).bind fun g _ e => ?_
  subst e
  refine (chutes_sim swapCols_sim g h5).bind fun g _ e => ?_
  subst e
  refine .bindEq fun g => ?_
  refine (sortRows_sim g 1).bind ?_
  rintro ⟨g, p2⟩ ⟨_, q2⟩ ⟨rfl, hp2⟩
  refine (sortRows_sim g 2).bind ?_
  rintro ⟨g, p3⟩ ⟨_, q3⟩ ⟨rfl, hp3⟩
  dsimp only
  cases decide (arrayCmp ((g.toList.drop 27).take 27) (g.toList.drop 54) = .gt) with
  | true =>
    refine .addR (by decide) fun _ => (swapBands_sim g 1 2).bind fun g _ e => ?_
    subst e
    exact (fromChoices_sim u.band 1).bind fun p q hp => .ok ⟨rfl, rfl, hp, h4, ⟨h3, hp3, hp2⟩, h5, rfl⟩
  | false =>
    refine .addR (by decide) fun _ => (swapBands_sim g 1 1).bind fun g _ e => ?_
    subst e
    exact (fromChoices_sim u.band 0).bind fun p q hp => .ok ⟨rfl, rfl, hp, h4, ⟨h3, hp2, hp3⟩, h5, rfl⟩

private theorem minByCount_sim {l : List (Grid × Canon.Transformation)} {m : List (Grid × RawCanon.Transformation)}
    (h : List.Forall₂ (fun a b => a.1 = b.1 ∧ Trans a.2 b.2) l m) : ∀ {x y} (k : Nat), x.1 = y.1 ∧ Trans x.2 y.2 →
    (Canon.minByCount l x k).1.1 = (RawCanon.minByCount m y k).1.1 ∧
      Trans (Canon.minByCount l x k).1.2 (RawCanon.minByCount m y k).1.2 ∧
      (Canon.minByCount l x k).2 = (RawCanon.minByCount m y k).2 := by
  induction h with
  | nil => intro x y k hxy; exact ⟨hxy.1, hxy.2, rfl⟩
  | cons hab _ ih =>
    intro x y k hxy
    rw [Canon.minByCount, RawCanon.minByCount, hxy.1, hab.1]
    cases Sudoku.cmp y.1 _ with
    | gt => exact ih 1 hab
    | lt => exact ih k hxy
    | eq => exact ih (k + 1) hxy

private theorem findCanonical_sim (g : Grid) : Sim (fun a b => a.1 = b.1 ∧ Trans a.2.1 b.2.1 ∧ a.2.2 = b.2.2)
    (Canon.findCanonical g) (RawCanon.findCanonical debug g) := by
  unfold Canon.findCanonical RawCanon.findCanonical
  refine Sim.bind (R := St) (Sim.foldlM (Q := Eq) ?_ (by simp) _ _ ⟨rfl, .nil⟩) fun st st' hs => ?_
  · rintro st st' transp _ hs rfl
    refine (transposeIf_sim transp g).bind fun g _ e => ?_
    subst e
    refine Sim.foldlM (Q := fun x y => Num x y ∧ x < 3) ?_ range3 _ _ hs
    rintro st st' _ band hs ⟨rfl, hb⟩
    exact findMinlexBand_sim g band hb transp hs
  · refine (Sim.mapM (fun _ _ h => findMinimal_sim g h) hs.2).bind fun l m hl => ?_
    cases hl with
    | nil => exact .panic
    | cons hx hl =>
      obtain ⟨h1, h2, h3⟩ := minByCount_sim hl 1 hx
      exact .ok ⟨h1, h2, h3⟩

private theorem shuffle_sim (d : Canon.Draws) (g : Grid) : Sim Eq (Canon.shuffle d g) (RawCanon.shuffle debug d g) := by
  unfold Canon.shuffle RawCanon.shuffle
  exact (random_sim d).bind fun t u ht => apply_sim ht g

private theorem canonicalized_sim (fuel : Nat) (g : Grid) :
    Sim Eq (Canon.canonicalized fuel g) (RawCanon.canonicalized debug fuel g) := by
  unfold Canon.canonicalized RawCanon.canonicalized
  refine .bindEq fun solved => ?_
  cases solved with
  | none => exact .ok rfl
  | some solved =>
    refine (findCanonical_sim solved).bind ?_
    rintro ⟨_, t, k⟩ ⟨_, u, k'⟩ ⟨-, ht, hk⟩
    dsimp only at ht hk ⊢
    subst hk
    refine (apply_sim ht g).bind fun g' _ e => ?_
    subst e
    exact .ok rfl

/-- **C87**: `shuffle` computes with `u8`s.  Whatever random numbers are drawn, no operation overflows and no debug
assertion fails: with and without them the outcome is that of the model on unbounded numbers. -/
theorem C87_shuffle (debug : Bool) (d : Canon.Draws) (g : Grid) (hg : WellFormed g) :
    ∃ g', Canon.shuffle d g = .ok g' ∧ RawCanon.shuffle debug d g = .ok g' := by
  obtain ⟨g', -, h, -⟩ := C22_shuffle g hg d 800 le_rfl
  obtain ⟨_, e, rfl⟩ := shuffle_sim (debug := debug) d g g' h
  exact ⟨g', h, e⟩

/-- **C87**: so does `canonicalized`. -/
theorem C87_canonicalized (debug : Bool) (g : Grid) (hg : WellFormed g) (fuel : Nat) (hf : 800 ≤ fuel) :
    ∃ r, Canon.canonicalized fuel g = .ok r ∧ RawCanon.canonicalized debug fuel g = .ok r := by
  obtain ⟨r, h, -⟩ := C24_canonicalized g hg fuel hf
  obtain ⟨_, e, rfl⟩ := canonicalized_sim (debug := debug) fuel g r h
  exact ⟨r, h, e⟩

/-- Non-vacuity: the example puzzle, which one draw changes. -/
example : WellFormed Ex.puzzle ∧ ∃ g', RawCanon.shuffle true ⟨123456, true, 3, 4, (1, 2, 5), (0, 3, 4)⟩ Ex.puzzle = .ok g' ∧
    g' ≠ Ex.puzzle := by
  refine ⟨by decide +kernel, ?_⟩
  have h : (match RawCanon.shuffle true ⟨123456, true, 3, 4, (1, 2, 5), (0, 3, 4)⟩ Ex.puzzle with
    | .ok g' => decide (g' ≠ Ex.puzzle) | _ => false) = true := by decide +kernel
  split at h
  · rename_i g' hg'
    exact ⟨g', hg', of_decide_eq_true h⟩
  · exact absurd h (by simp)

/-- The checks are not vacuous: with them an index that does not fit panics, without them it wraps around. -/
example : RawCanon.swapRows true (Vector.replicate 81 (0 : UInt8)) 29 0 = .panic ∧
    RawCanon.swapRows false (Vector.replicate 81 (0 : UInt8)) 29 0 ≠ .panic := by decide +kernel

end Verif.Props
