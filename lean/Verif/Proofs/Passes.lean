import Verif.Proofs.StratNodup
import Verif.Proofs.StratComplete

/-!
# The strategy solver: one search finds no shape twice

A deduction is identified within one search by its shape (`key`): the cells of a naked subset, the digits of a hidden
one, the lines of a fish, the hinge and the pincers of a wing.
-/
namespace Verif.Strat

open Bitset Generator

abbrev Key := Nat × Nat × Finset Nat

/-- The shape of a deduction. -/
def key {T : Type} (hid : Bool) : Deduction T → Key
  | .lockedCandidates d m isP _ => (d.val, 2 * m.val + isP.toNat, ∅)
  | .subsets h positions digits _ => (h.val, 0, if hid then elems digits else elems positions)
  | .basicFish d lines _ _ => (d.val, 0, elems lines)
  | .wing hinge _ pincers _ => (hinge.val, 0, elems pincers)
  | _ => (0, 0, ∅)

/-- Deductions were added, with different shapes in `K`, and the candidates they exclude, each list without duplicates. -/
def Adds (hid : Bool) (K : Key → Prop) (s s' : Solver) : Prop :=
  ∃ L : List (RangeDeduction × List Candidate), s'.deductions = s.deductions ++ L.map Prod.fst ∧
    s'.eliminated = s.eliminated ++ L.flatMap Prod.snd ∧ (L.map fun x => key hid x.1).Nodup ∧
    Ranges s.eliminated.length s'.eliminated.length (L.map Prod.fst) ∧
    ∀ x ∈ L, K (key hid x.1) ∧ x.2.Nodup ∧ ∃ rg, x.1.conf = some rg ∧ slice s'.eliminated rg = .ok x.2

variable {hid : Bool} {K : Key → Prop}

theorem Adds.refl (s : Solver) : Adds hid K s s :=
  ⟨[], by simp, by simp, by simp, Ranges.nil (Nat.le_refl _), by simp⟩

theorem Adds.mono {K' : Key → Prop} {s s' : Solver} (h : Adds hid K s s') (hk : ∀ k, K k → K' k) : Adds hid K' s s' := by
  obtain ⟨L, h1, h2, h3, h5, h4⟩ := h
  exact ⟨L, h1, h2, h3, h5, fun x hx => ⟨hk _ (h4 x hx).1, (h4 x hx).2⟩⟩

theorem slice_append {l m : List Candidate} {rg : Nat × Nat} {x : List Candidate} (h : slice l rg = .ok x) :
    slice (l ++ m) rg = .ok x := by
  unfold slice at h ⊢
  split at h
  · rename_i hr
    cases h
    rw [if_pos ⟨hr.1, by rw [List.length_append]; omega⟩, List.take_append_of_le_length hr.2]
  · cases h

theorem Adds.trans {K' K'' : Key → Prop} {s s1 s2 : Solver} (h : Adds hid K s s1) (h' : Adds hid K' s1 s2)
    (hd : ∀ k, K k → ¬ K' k) (h1 : ∀ k, K k → K'' k) (h2 : ∀ k, K' k → K'' k) : Adds hid K'' s s2 := by
  obtain ⟨L, a1, a2, a3, a5, a4⟩ := h
  obtain ⟨M, b1, b2, b3, b5, b4⟩ := h'
  refine ⟨L ++ M, by rw [b1, a1, List.map_append, List.append_assoc],
    by rw [b2, a2, List.flatMap_append, List.append_assoc], ?_, by rw [List.map_append]; exact a5.append b5, ?_⟩
  · rw [List.map_append, List.nodup_append]
    refine ⟨a3, b3, fun k hk k' hk' e => ?_⟩
    subst e
    obtain ⟨x, hx, rfl⟩ := List.mem_map.mp hk
    obtain ⟨y, hy, e⟩ := List.mem_map.mp hk'
    exact hd _ (a4 x hx).1 (e ▸ (b4 y hy).1)
  · intro x hx
    rcases List.mem_append.mp hx with hx | hx
    · obtain ⟨c1, c2, rg, c3, c4⟩ := a4 x hx
      exact ⟨h1 _ c1, c2, rg, c3, by rw [b2]; exact slice_append c4⟩
    · obtain ⟨c1, c2⟩ := b4 x hx
      exact ⟨h2 _ c1, c2⟩

/-- A search. -/
def AddsBy (hid : Bool) (K : Key → Prop) (f : Solver → Res (Solver × Bool)) : Prop :=
  ∀ s r, f s = .ok r → Adds hid K s r.1

/-- A look at a combination. -/
def AddsVisit (hid : Bool) (K : Key → Prop) (f : Solver → Res (Solver × Option Bool)) : Prop :=
  ∀ s r, f s = .ok r → Adds hid K s r.1

theorem AddsBy.skip (b : Bool) : AddsBy hid K (fun s => .ok (s, b)) := by
  intro s r he
  cases he
  exact Adds.refl _

theorem AddsVisit.skip (b : Option Bool) : AddsVisit hid K (fun s => .ok (s, b)) := by
  intro s r he
  cases he
  exact Adds.refl _

theorem AddsBy.congr {f g : Solver → Res (Solver × Bool)} (h : AddsBy hid K f) (hfg : ∀ s, g s = f s) : AddsBy hid K g := by
  intro s r he
  rw [hfg] at he
  exact h s r he

theorem AddsBy.mono {K' : Key → Prop} {f : Solver → Res (Solver × Bool)} (h : AddsBy hid K f) (hk : ∀ k, K k → K' k) :
    AddsBy hid K' f := fun s r he => (h s r he).mono hk

theorem enterConflicts_adds {l : List Candidate} (hl : l.Nodup) (mk : Nat × Nat → RangeDeduction)
    (hmk : ∀ rg, (mk rg).conf = some rg) {k : Key} (hk : ∀ rg, key hid (mk rg) = k) (s : Solver) :
    Adds hid (· = k) s (s.enterConflicts l mk).1 := by
  unfold Solver.enterConflicts
  dsimp only
  split
  · refine ⟨[(mk (s.eliminated.length, (s.eliminated ++ l).length), l)], rfl, by simp, by simp, ⟨by simp, ?_, List.pairwise_singleton _ _⟩, ?_⟩
    · intro d hd rg he
      rw [List.map_singleton, List.mem_singleton] at hd
      subst hd
      rw [hmk] at he
      cases he
      exact ⟨Nat.le_refl _, Nat.le_refl _⟩
    intro x hx
    rw [List.mem_singleton] at hx
    subst hx
    refine ⟨hk _, hl, _, hmk _, ?_⟩
    unfold slice
    rw [if_pos ⟨by simp, by simp⟩]
    simp [List.take_append, List.drop_append]
  · rename_i h
    rw [List.length_append] at h
    have e : l = [] := List.length_eq_zero_iff.mp (by omega)
    subst e
    exact ⟨[], by simp, by simp, by simp, Ranges.nil (by simp), by simp⟩

theorem AddsBy.enter {k : Key} {f : Solver → Res (Solver × Bool)}
    (hf : ∀ s r, f s = .ok r → ∃ (l : List Candidate) (mk : Nat × Nat → RangeDeduction), r = s.enterConflicts l mk ∧
      l.Nodup ∧ (∀ rg, (mk rg).conf = some rg) ∧ ∀ rg, key hid (mk rg) = k) : AddsBy hid (· = k) f := by
  intro s r he
  obtain ⟨l, mk, rfl, hn, hmk, hk⟩ := hf s r he
  exact enterConflicts_adds hn mk hmk hk s

theorem AddsVisit.enter {f : Solver → Res (Solver × Bool)} (hf : AddsBy hid K f) {g : Solver × Bool → Res (Solver × Option Bool)}
    (hg : ∀ s b, ∃ b', g (s, b) = .ok (s, b')) : AddsVisit hid K (fun s => f s >>= g) := by
  intro s r he
  obtain ⟨⟨s1, b⟩, h1, h2⟩ := bind_ok he
  obtain ⟨b', hb⟩ := hg s1 b
  rw [hb] at h2
  cases h2
  exact hf s _ h1

theorem AddsBy.stopped {f : Solver → Res (Solver × Bool)} (h : AddsBy hid K f) (g : Bool → Bool) :
    AddsBy hid K (fun s => f s >>= fun r => .ok (r.1, g r.2)) := by
  intro s r he
  obtain ⟨⟨s1, b⟩, h1, h2⟩ := bind_ok he
  cases h2
  exact h s (s1, b) h1

theorem forUntil_adds {α : Type} {f : Solver → α → Res (Solver × Bool)} (K : α → Key → Prop) :
    ∀ l : List α, l.Nodup → (∀ x ∈ l, AddsBy hid (K x) (fun s => f s x)) →
      (∀ x ∈ l, ∀ y ∈ l, ∀ k, K x k → K y k → x = y) → AddsBy hid (fun k => ∃ x ∈ l, K x k) (forUntil f l) := by
  intro l
  induction l with
  | nil => intro _ _ _ s r he; cases he; exact Adds.refl _
  | cons x xs ih =>
    intro hn h hd s r he
    rw [List.nodup_cons] at hn
    unfold forUntil at he
    obtain ⟨⟨s1, stop⟩, h1, h2⟩ := bind_ok he
    have k1 := h x (by simp) s _ h1
    dsimp only at h2 k1
    split at h2
    · cases h2
      exact k1.mono fun k hk => ⟨x, by simp, hk⟩
    · refine k1.trans (ih hn.2 (fun y hy => h y (by simp [hy])) (fun y hy z hz => hd y (by simp [hy]) z (by simp [hz])) s1 r h2)
        ?_ (fun k hk => ⟨x, by simp, hk⟩) ?_
      · rintro k hk ⟨y, hy, hk'⟩
        have := hd x (by simp) y (by simp [hy]) k hk hk'
        subst this
        exact hn.1 hy
      · rintro k ⟨y, hy, hk⟩
        exact ⟨y, by simp [hy], hk⟩

/-- The shapes that a search finds below the combination `u`: `u` with elements of `l`. -/
def Below {n : Nat} (kk : Finset Nat → Key) (u : Finset Nat) (l : List (Fin n)) (k : Key) : Prop :=
  ∃ v : Finset Nat, (∀ i ∈ v, ∃ x ∈ l, i = x.val) ∧ k = kk (u ∪ v)

def Below1 {n : Nat} (kk : Finset Nat → Key) (u : Finset Nat) (l : List (Fin n)) (k : Key) : Prop :=
  ∃ v : Finset Nat, v.Nonempty ∧ (∀ i ∈ v, ∃ x ∈ l, i = x.val) ∧ k = kk (u ∪ v)

theorem walkLoop_adds {n : Nat} {A : Type} {visit : A → Solver → Res (Solver × Option Bool)}
    {step : A → Fin n → Res (Option A)} (I : A → Prop) (m : A → Finset Nat) (kk : Finset Nat → Key)
    (hkk : ∀ u v, kk u = kk v → u = v) (hv : ∀ a, I a → AddsVisit hid (· = kk (m a)) (visit a)) :
    ∀ (l : List (Fin n)), l.Nodup →
      (∀ a, ∀ x ∈ l, I a → ∀ a', step a x = .ok (some a') → I a' ∧ m a' = insert x.val (m a)) →
      ∀ a, I a → (∀ x ∈ l, x.val ∉ m a) → AddsBy hid (Below1 kk (m a) l) (walkLoop visit step l a) := by
  intro l
  induction l with
  | nil => intro _ _ a _ _ s r he; cases he; exact Adds.refl _
  | cons x xs ih =>
    intro hn hs a ha hm s r he
    rw [List.nodup_cons] at hn
    have ih := ih hn.2 (fun a y hy => hs a y (by simp [hy]))
    unfold walkLoop at he
    obtain ⟨st, h1, h2⟩ := bind_ok he
    have up : ∀ k, Below1 kk (m a) xs k → Below1 kk (m a) (x :: xs) k := by
      rintro k ⟨v, v1, v2, v3⟩
      exact ⟨v, v1, fun i hi => (v2 i hi).imp fun y hy => ⟨by simp [hy.1], hy.2⟩, v3⟩
    cases st with
    | none => exact (ih a ha (fun y hy => hm y (by simp [hy])) s r h2).mono up
    | some a' =>
      dsimp only at h2
      obtain ⟨⟨s1, found⟩, h3, h4⟩ := bind_ok h2
      obtain ⟨⟨s2, v⟩, h5, h6⟩ := bind_ok h3
      obtain ⟨ha', hma⟩ := hs a x (by simp) ha a' h1
      have k1 : Adds hid (· = kk (m a')) s s2 := hv a' ha' s _ h5
      have hx : x.val ∉ m a := hm x (by simp)
      have hx' : ∀ y ∈ xs, y.val ≠ x.val := fun y hy e => hn.1 (Fin.ext e ▸ hy)
      have below : Adds hid (Below kk (m a') xs) s s1 := by
        cases v with
        | none =>
          dsimp only at h6
          have k2 := ih a' ha' (fun y hy => by
            rw [hma, Finset.mem_insert]
            rintro (e | e)
            · exact hx' y hy e
            · exact hm y (by simp [hy]) e) s2 _ h6
          refine k1.trans k2 ?_ ?_ ?_
          · rintro k rfl ⟨v, ⟨i, hi⟩, v2, v3⟩
            have e := hkk _ _ v3
            have : i ∈ m a' := by rw [e]; exact Finset.mem_union_right _ hi
            obtain ⟨y, hy, rfl⟩ := v2 i hi
            rw [hma, Finset.mem_insert] at this
            rcases this with e | e
            · exact hx' y hy e
            · exact hm y (by simp [hy]) e
          · rintro k rfl
            exact ⟨∅, by simp, by simp⟩
          · rintro k ⟨v, _, v2, v3⟩
            exact ⟨v, v2, v3⟩
        | some b =>
          dsimp only at h6
          cases h6
          refine k1.mono ?_
          rintro k rfl
          exact ⟨∅, by simp, by simp⟩
      have lift : ∀ k, Below kk (m a') xs k → Below1 kk (m a) (x :: xs) k := by
        rintro k ⟨v, v2, rfl⟩
        refine ⟨insert x.val v, Finset.insert_nonempty _ _, ?_, ?_⟩
        · intro i hi
          rcases Finset.mem_insert.mp hi with rfl | hi
          · exact ⟨x, by simp, rfl⟩
          · obtain ⟨y, hy, e⟩ := v2 i hi
            exact ⟨y, by simp [hy], e⟩
        · rw [hma, Finset.insert_union, Finset.union_insert]
      dsimp only at h4
      split at h4
      · cases h4
        exact below.mono lift
      · refine below.trans (ih a ha (fun y hy => hm y (by simp [hy])) s1 r h4) ?_ lift up
        rintro k ⟨v, v2, rfl⟩ ⟨w, w1, w2, e⟩
        have e := hkk _ _ e
        have : x.val ∈ m a ∪ w := by
          rw [← e, hma]
          exact Finset.mem_union_left _ (Finset.mem_insert_self _ _)
        rcases Finset.mem_union.mp this with h | h
        · exact hx h
        · obtain ⟨y, hy, e⟩ := w2 _ h
          exact hx' y hy e.symm

theorem walk_adds {n : Nat} {A : Type} {visit : A → Solver → Res (Solver × Option Bool)}
    {step : A → Fin n → Res (Option A)} (I : A → Prop) (m : A → Finset Nat) (kk : Finset Nat → Key)
    (hkk : ∀ u v, kk u = kk v → u = v) (hv : ∀ a, I a → AddsVisit hid (· = kk (m a)) (visit a))
    (l : List (Fin n)) (hn : l.Nodup)
    (hs : ∀ a, ∀ x ∈ l, I a → ∀ a', step a x = .ok (some a') → I a' ∧ m a' = insert x.val (m a))
    (a : A) (ha : I a) (hm : m a = ∅) (h0 : ∀ s r, visit a s = .ok r → r.1 = s) :
    AddsBy hid (Below1 kk ∅ l) (walk visit step l a) := by
  intro s r he
  unfold walk at he
  obtain ⟨⟨s2, v⟩, h5, h6⟩ := bind_ok he
  have e := h0 s _ h5
  dsimp only at e
  subst e
  cases v with
  | none =>
    dsimp only at h6
    have k2 := walkLoop_adds I m kk hkk hv l hn hs a ha (by simp [hm]) s2 r h6
    rw [hm] at k2
    exact k2
  | some b =>
    dsimp only at h6
    cases h6
    exact Adds.refl _

/-! ## Subsets -/

theorem elems_insert {w i : Nat} (hi : i < w) (a : BitVec w) : elems (union a (asSet w i)) = insert i (elems a) := by
  rw [elems_union, elems_asSet hi, Finset.union_comm, Finset.insert_eq]

theorem onNaked_adds {cp : Vector DigitSet 81} (hf : ∀ c : Fin 81, Fits 9 cp[c]) (h : Fin 27) (a : PosSet × DigitSet) :
    AddsBy false (· = (h.val, 0, elems a.1)) (fun s => onNakedSubset cp h s a.1 a.2) := by
  refine AddsBy.enter fun s r he => ?_
  unfold onNakedSubset at he
  rw [items_eq (by omega) (by omega) (fits_compl a.1), Res.ok_bind,
    flatMapM_ok _ (fun pos _ => cellConflicts_ok (hf _) a.2), Res.ok_bind] at he
  cases he
  refine ⟨_, _, rfl, nodup_flatMap_of (nodup_mems _) (fun x _ => nodup_cellConflicts _ _) ?_, fun _ => rfl, fun _ => rfl⟩
  intro x _ y _ b hx hy
  rw [mem_cellConflicts] at hx hy
  exact hca_inj (hx.1.symm.trans hy.1)

theorem onHidden_adds {poss : Vector PosSet 9} (hf : ∀ d : Digit, Fits 9 poss[d]) (h : Fin 27) (a : DigitSet × PosSet) :
    AddsBy true (· = (h.val, 0, elems a.1)) (fun s => onHiddenSubset poss h s a.1 a.2) := by
  refine AddsBy.enter fun s r he => ?_
  unfold onHiddenSubset at he
  rw [items_eq (by omega) (by omega) (fits_compl a.1), Res.ok_bind,
    flatMapM_ok (g := fun d => (mems 9 (inter poss[d] a.2)).map (fun pos => (⟨Pos.houseCellAt h pos, d⟩ : Candidate))) _
      (fun d _ => by rw [items_eq (by omega) (by omega) (hf d).inter_left, Res.ok_bind]), Res.ok_bind] at he
  cases he
  refine ⟨_, _, rfl, nodup_flatMap_of (nodup_mems _) (fun x _ => (nodup_mems _).map ?_) ?_, fun _ => rfl, fun _ => rfl⟩
  · intro p q e
    exact hca_inj (congrArg Candidate.cell e)
  · intro x _ y _ b hx hy
    obtain ⟨_, _, rfl⟩ := List.mem_map.mp hx
    obtain ⟨_, _, e⟩ := List.mem_map.mp hy
    exact (congrArg Candidate.digit e).symm

theorem kk_inj {i : Nat} : ∀ u v : Finset Nat, ((i, 0, u) : Key) = (i, 0, v) → u = v := by
  intro u v h
  cases h
  rfl

theorem below_house {l : List (Fin 9)} {h h' : Fin 27} {k : Key} (h1 : Below1 (fun u => (h.val, 0, u)) ∅ l k)
    (h2 : Below1 (fun u => (h'.val, 0, u)) ∅ l k) : h = h' := by
  obtain ⟨v, -, -, rfl⟩ := h1
  obtain ⟨w, -, -, e⟩ := h2
  exact Fin.ext (congrArg Prod.fst e)

theorem nakedSubsets_adds {cp : Vector DigitSet 81} {hs : Vector DigitSet 27} (hf : ∀ c : Fin 81, Fits 9 cp[c])
    {size : UInt8} (hsz : size ≠ 0) (stop : Bool) : AddsBy false (fun _ => True) (forUntil (fun s' house =>
      if isFull 9 hs[house] then .ok (s', false)
      else do
        let positions ← items 9 (ALL 16 9)
        walk (nakedVisit cp size stop house) (nakedStep cp house) positions (NONE 16, NONE 16) s')
      (List.finRange 27)) := by
  refine AddsBy.mono (forUntil_adds (fun h : Fin 27 => Below1 (fun u => (h.val, 0, u)) ∅ (mems 9 (ALL 16 9))) _
    (List.nodup_finRange 27) (fun h _ => ?_) (fun h _ h' _ k => below_house)) (fun _ _ => trivial)
  by_cases hfu : isFull 9 hs[h] = true
  · simp only [hfu, if_true]
    exact AddsBy.skip _
  · simp only [if_neg hfu]
    refine AddsBy.congr (walk_adds (visit := nakedVisit cp size stop h) (step := nakedStep cp h) (fun _ => True)
      (fun a => elems a.1) (fun u => (h.val, 0, u)) kk_inj ?_ (mems 9 (ALL 16 9)) (nodup_mems _) ?_ (NONE 16, NONE 16) trivial
      elems_NONE ?_) (fun s => by
        rw [items_eq (by omega) (by omega) (fits_all (by omega) (by omega)), Res.ok_bind])
    · intro a _
      unfold nakedVisit
      by_cases h1 : len a.1 > size
      · simp only [if_pos h1]
        exact AddsVisit.skip _
      · simp only [if_neg h1]
        by_cases h2 : len a.1 = size ∧ len a.2 = len a.1
        · simp only [if_pos h2]
          refine AddsVisit.enter (onNaked_adds hf h a) (fun s b => ?_)
          dsimp only
          split
          · exact ⟨_, rfl⟩
          · exact ⟨_, rfl⟩
        · simp only [if_neg h2]
          exact AddsVisit.skip _
    · intro a x _ _ a' he
      unfold nakedStep at he
      dsimp only at he
      split at he
      · cases he
      · cases he
        exact ⟨trivial, elems_insert (by omega) _⟩
    · intro s r he
      unfold nakedVisit at he
      rw [show len (NONE 16) = 0 from rfl] at he
      dsimp only at he
      split at he
      · cases he; rfl
      · rw [if_neg (fun h => hsz h.1.symm)] at he
        cases he; rfl

theorem hiddenSubsets_adds {hs : Vector DigitSet 27} {hp : HousePoss} (hf : ∀ (h : Fin 27) (d : Digit), Fits 9 hp[h][d])
    {size : UInt8} (hsz : size ≠ 0) (stop : Bool) : AddsBy true (fun _ => True) (forUntil (fun s' house =>
      if isFull 9 hs[house] then .ok (s', false)
      else do
        let digits ← items 9 (ALL 16 9)
        walk (hiddenVisit hp[house] size stop house) (hiddenStep hp[house]) digits (NONE 16, NONE 16) s')
      (List.finRange 27)) := by
  refine AddsBy.mono (forUntil_adds (fun h : Fin 27 => Below1 (fun u => (h.val, 0, u)) ∅ (mems 9 (ALL 16 9))) _
    (List.nodup_finRange 27) (fun h _ => ?_) (fun h _ h' _ k => below_house)) (fun _ _ => trivial)
  by_cases hfu : isFull 9 hs[h] = true
  · simp only [hfu, if_true]
    exact AddsBy.skip _
  · simp only [if_neg hfu]
    refine AddsBy.congr (walk_adds (visit := hiddenVisit hp[h] size stop h) (step := hiddenStep hp[h]) (fun _ => True)
      (fun a => elems a.1) (fun u => (h.val, 0, u)) kk_inj ?_ (mems 9 (ALL 16 9)) (nodup_mems _) ?_ (NONE 16, NONE 16) trivial
      elems_NONE ?_) (fun s => by
        rw [items_eq (by omega) (by omega) (fits_all (by omega) (by omega)), Res.ok_bind])
    · intro a _
      unfold hiddenVisit
      by_cases h1 : len a.1 > size
      · simp only [if_pos h1]
        exact AddsVisit.skip _
      · simp only [if_neg h1]
        by_cases h2 : len a.1 = size ∧ len a.2 = size
        · simp only [if_pos h2]
          refine AddsVisit.enter (onHidden_adds (hf h) h a) (fun s b => ?_)
          dsimp only
          split
          · exact ⟨_, rfl⟩
          · exact ⟨_, rfl⟩
        · simp only [if_neg h2]
          exact AddsVisit.skip _
    · intro a x _ _ a' he
      unfold hiddenStep at he
      split at he
      · cases he
      · cases he
        exact ⟨trivial, elems_insert (by omega) _⟩
    · intro s r he
      unfold hiddenVisit at he
      rw [show len (NONE 16) = 0 from rfl] at he
      dsimp only at he
      split at he
      · cases he; rfl
      · rw [if_neg (fun h => hsz h.1.symm)] at he
        cases he; rfl

/-! ## Fish -/

theorem onFish_adds {cp : Vector DigitSet 81} (digit : Digit) (dir : Fin 2) {a : LineSet × PosSet} (hf2 : Fits 9 a.2) :
    AddsBy hid (· = (digit.val, 0, elems a.1)) (fun s => onFish cp (dirLines dir) digit s a.1 a.2) := by
  refine AddsBy.enter fun s r he => ?_
  unfold onFish at he
  rw [items_eq (by omega) (by omega) (dirLines_fits dir).without, Res.ok_bind,
    flatMapM_ok (g := fun line => (mems 9 a.2).map (fun pos => Pos.lineCellAt line pos)) _
      (fun d _ => by rw [items_eq (by omega) (by omega) hf2, Res.ok_bind]), Res.ok_bind] at he
  cases he
  have hdir : ∀ x ∈ mems 18 (without (dirLines dir) a.1), ∃ i, x = dirLine dir i := by
    intro x hx
    rw [mem_mems, bit_without, Bool.and_eq_true, dirLines_bit] at hx
    exact hx.1
  refine ⟨_, _, rfl, nodup_cells (nodup_flatMap_of (nodup_mems _) ?_ ?_) cp digit, fun _ => rfl, fun _ => rfl⟩
  · intro x hx
    obtain ⟨i, rfl⟩ := hdir x hx
    exact (nodup_mems _).map fun p q e => (lineCellAt_inj dir i i p q e).2
  · intro x hx y hy b hb hb'
    obtain ⟨i, rfl⟩ := hdir x hx
    obtain ⟨j, rfl⟩ := hdir y hy
    obtain ⟨p, _, rfl⟩ := List.mem_map.mp hb
    obtain ⟨q, _, e⟩ := List.mem_map.mp hb'
    rw [(lineCellAt_inj dir j i q p e).1]

theorem fish_adds {cp : Vector DigitSet 81} {hp : HousePoss} (hf : ∀ (h : Fin 27) (d : Digit), Fits 9 hp[h][d])
    {size : UInt8} (hsz : size ≠ 0) (stop : Bool) : AddsBy hid (fun _ => True) (forUntil (fun s' (digit : Digit) =>
      forUntil (fun s' (lines : LineSet) => do
        let l ← items 18 lines
        walk (fishVisit cp lines digit size stop) (fishStep hp digit size) l (NONE 32, NONE 16) s')
      [allRows, allCols] s') (List.finRange 9)) := by
  refine AddsBy.mono (forUntil_adds (fun (digit : Digit) (k : Key) => ∃ L ∈ [allRows, allCols],
    Below1 (fun u => (digit.val, 0, u)) ∅ (mems 18 L) k) _ (List.nodup_finRange 9) (fun digit _ => ?_) ?_) (fun _ _ => trivial)
  · refine forUntil_adds (fun (L : LineSet) (k : Key) => Below1 (fun u => (digit.val, 0, u)) ∅ (mems 18 L) k) _ (by decide)
      (fun L hL => ?_) ?_
    · have hdir : ∃ dir, L = dirLines dir := by
        rcases List.mem_cons.mp hL with rfl | hL
        · exact ⟨0, rfl⟩
        · rw [List.mem_singleton] at hL
          exact ⟨1, hL⟩
      obtain ⟨dir, rfl⟩ := hdir
      refine AddsBy.congr (walk_adds (visit := fishVisit cp (dirLines dir) digit size stop) (step := fishStep hp digit size)
        (fun a => Fits 9 a.2) (fun a => elems a.1) (fun u => (digit.val, 0, u)) kk_inj ?_ (mems 18 (dirLines dir))
        (nodup_mems _) ?_ (NONE 32, NONE 16) fits_none elems_NONE ?_) (fun s => by
          rw [items_eq (by omega) (by omega) (dirLines_fits dir), Res.ok_bind])
      · intro a ha
        unfold fishVisit
        by_cases h1 : len a.1 = size
        · simp only [if_pos h1]
          by_cases h2 : len a.2 ≠ size
          · simp only [if_pos h2]
            exact AddsVisit.skip _
          · simp only [if_neg h2]
            refine AddsVisit.enter (onFish_adds digit dir ha) (fun s b => ?_)
            dsimp only
            split
            · exact ⟨_, rfl⟩
            · exact ⟨_, rfl⟩
        · simp only [if_neg h1]
          exact AddsVisit.skip _
      · intro a x _ ha a' he
        unfold fishStep at he
        dsimp only at he
        rw [asLineSet_ok (hf _ _), Res.ok_bind] at he
        split at he
        · cases he
        · cases he
          exact ⟨ha.union (hf _ _), elems_insert (by omega) _⟩
      · intro s r he
        unfold fishVisit at he
        rw [show len (NONE 32) = 0 from rfl] at he
        dsimp only at he
        rw [if_neg (fun h => hsz h.symm)] at he
        cases he; rfl
    · have hd : ∀ l : Fin 18, ¬ (allRows.getLsbD l.val = true ∧ allCols.getLsbD l.val = true) := by decide +kernel
      have no : ∀ k, Below1 (fun u => (digit.val, 0, u)) ∅ (mems 18 allRows) k →
          Below1 (fun u => (digit.val, 0, u)) ∅ (mems 18 allCols) k → False := by
        rintro k ⟨v, ⟨i, hi⟩, v2, rfl⟩ ⟨w, -, w2, e⟩
        have e := kk_inj _ _ e
        rw [Finset.empty_union, Finset.empty_union] at e
        obtain ⟨x, hx, rfl⟩ := v2 i hi
        rw [e] at hi
        obtain ⟨y, hy, hxy⟩ := w2 _ hi
        have := Fin.ext hxy
        subst this
        rw [mem_mems] at hx hy
        exact hd _ ⟨hx, hy⟩
      intro x hx y hy k hk hk'
      simp only [List.mem_cons, List.not_mem_nil, or_false] at hx hy
      rcases hx with rfl | rfl <;> rcases hy with rfl | rfl
      · rfl
      · exact (no k hk hk').elim
      · exact (no k hk' hk).elim
      · rfl
  · rintro d _ d' _ k ⟨L, _, v, _, _, rfl⟩ ⟨L', _, w, _, _, e⟩
    exact Fin.ext (congrArg Prod.fst e)

/-! ## Locked candidates -/

theorem onLocked_adds {cp : Vector DigitSet 81} (hf : ∀ c : Fin 81, Fits 9 cp[c]) {m : Fin 54} {d : Digit}
    {n1 n2 : Fin 54} (hne : n1 ≠ n2) (hc : ∀ c : Fin 81, ¬ ((Pos.miniLineCells n1).getLsbD c.val = true ∧
      (Pos.miniLineCells n2).getLsbD c.val = true)) (isP : Bool) :
    AddsBy hid (· = (d.val, 2 * m.val + isP.toNat, ∅)) (fun s => onLocked cp s m d (n1.val, n2.val) isP) := by
  refine AddsBy.enter fun s r he => ?_
  unfold onLocked at he
  dsimp only at he
  rw [toFin_val, Res.ok_bind, toFin_val, Res.ok_bind,
    flatMapM_ok (g := fun n => mems 81 (Pos.miniLineCells n)) _ (fun x _ => items_eq (by omega) (by omega) (fits_mini x)),
    Res.ok_bind, flatMapM_ok (g := fun c => (mems 9 (inter cp[c] (asSet 16 d.val))).map (fun d => (⟨c, d⟩ : Candidate))) _
      (fun c _ => cellConflicts_ok (hf c) _), Res.ok_bind] at he
  cases he
  refine ⟨_, _, rfl, nodup_flatMap_of (nodup_flatMap_of ?_ (fun x _ => nodup_mems _) ?_)
    (fun x _ => nodup_cellConflicts _ _) ?_, fun _ => rfl, fun _ => rfl⟩
  · simpa using hne
  · intro x hx y hy b hb hb'
    rw [mem_mems] at hb hb'
    simp only [List.mem_cons, List.not_mem_nil, or_false] at hx hy
    rcases hx with rfl | rfl <;> rcases hy with rfl | rfl
    · rfl
    · exact absurd ⟨hb, hb'⟩ (hc b)
    · exact absurd ⟨hb', hb⟩ (hc b)
    · rfl
  · intro x _ y _ b hx hy
    rw [mem_cellConflicts] at hx hy
    exact hx.1.symm.trans hy.1

theorem locked_adds {cp : Vector DigitSet 81} (hf : ∀ c : Fin 81, Fits 9 cp[c]) (stop : Bool) :
    AddsBy hid (fun _ => True) (forUntil (lockedChute cp stop) (List.finRange 6)) := by
  refine AddsBy.mono (forUntil_adds (fun (chute : Fin 6) (k : Key) => ∃ (i : Fin 9) (b : Bool),
    k.2.1 = 2 * (ml chute i).val + b.toNat) _ (List.nodup_finRange 6) (fun chute _ => ?_) ?_) (fun _ _ => trivial)
  · unfold lockedChute
    have hl : (Pos.minilines chute).mapM (minilineDigits cp) =
        .ok ((List.finRange 9).map (fun i => miniPoss cp (ml chute i))) := by
      rw [Res.mapM_ok _ (miniPoss cp)]
      · unfold Pos.minilines
        rw [List.map_map]
        rfl
      · intro m _
        unfold minilineDigits
        rw [items_eq (by omega) (by omega) (fits_mini m), Res.ok_bind]
        rfl
    rw [hl]
    simp only [Res.ok_bind]
    rw [funext (fun s => dif_pos (by simp))]
    refine AddsBy.mono (forUntil_adds (fun (i : Fin 9) (k : Key) => ∃ b : Bool, k.2.1 = 2 * (ml chute i).val + b.toNat) _
      (List.nodup_finRange 9) (fun i _ => ?_) ?_) (fun k ⟨i, _, hk⟩ => ⟨i, hk⟩)
    · unfold lockedMiniline
      dsimp only
      change AddsBy _ _ (fun s => match Pos.minilineNeighbors (ml chute i) with
        | none => _
        | some (_, _) => _)
      obtain ⟨ln, fn, he, ⟨x, y, rfl, _⟩, ⟨z, w, rfl, _⟩⟩ := minilineNeighbors_spec (ml chute i)
      have hd := neighbors_disjoint (ml chute i)
      rw [he] at hd ⊢
      dsimp only at hd ⊢
      simp only [List.all_cons, List.all_nil, Bool.and_true, Bool.and_eq_true, Fin.eta] at hd
      rw [dif_pos ⟨x.isLt, y.isLt⟩, dif_pos ⟨z.isLt, w.isLt⟩, decide_eq_true_eq, decide_eq_true_eq] at hd
      obtain ⟨⟨d1, d2⟩, d3, d4⟩ := hd
      refine AddsBy.mono (forUntil_adds (fun (x : DigitSet × (Nat × Nat) × Bool) (k : Key) =>
        k.2.1 = 2 * (ml chute i).val + x.2.2.toNat) _ (List.Nodup.filter _ ?_) ?_ ?_) (fun k ⟨x, _, hk⟩ => ⟨x.2.2, hk⟩)
      · simp
      · rintro ⟨digits, n, isP⟩ hx
        have hx := List.mem_of_mem_filter hx
        have hfit : Fits 9 digits := by
          simp only [List.mem_cons, Prod.mk.injEq, List.not_mem_nil, or_false] at hx
          rcases hx with ⟨rfl, _⟩ | ⟨rfl, _⟩
          · have : Fits 9 (miniPoss cp (ml chute i)) := fits_miniPoss hf _
            simpa using this.inter_left
          · have : Fits 9 (miniPoss cp (ml chute i)) := fits_miniPoss hf _
            simpa using this.inter_left
        dsimp only
        rw [items_eq (by omega) (by omega) hfit]
        simp only [Res.ok_bind]
        refine AddsBy.mono (forUntil_adds (fun (d : Digit) (k : Key) => k = (d.val, 2 * (ml chute i).val + isP.toNat, ∅)) _
          (nodup_mems _) (fun d _ => ?_) ?_) (by rintro k ⟨d, _, rfl⟩; rfl)
        · refine AddsBy.stopped ?_ (fun b => stop && b)
          simp only [List.mem_cons, Prod.mk.injEq, List.not_mem_nil, or_false] at hx
          rcases hx with ⟨rfl, rfl, rfl⟩ | ⟨rfl, rfl, rfl⟩
          · exact onLocked_adds hf (fun e => d3 (congrArg Fin.val e)) d4 false
          · exact onLocked_adds hf (fun e => d1 (congrArg Fin.val e)) d2 true
        · rintro d _ d' _ k rfl e
          exact Fin.ext (congrArg Prod.fst e)
      · intro a ha b hb k hk hk'
        have ha := List.mem_of_mem_filter ha
        have hb := List.mem_of_mem_filter hb
        have e : a.2.2.toNat = b.2.2.toNat := by omega
        simp only [List.mem_cons, List.not_mem_nil, or_false] at ha hb
        rcases ha with rfl | rfl <;> rcases hb with rfl | rfl <;> first | rfl | cases e
    · rintro i _ j _ k ⟨b, hb⟩ ⟨b', hb'⟩
      have : ∀ b : Bool, b.toNat < 2 := by decide
      have h1 := this b
      have h2 := this b'
      have : (ml chute i).val = (ml chute j).val := by omega
      unfold ml at this
      exact Fin.ext (by simpa using this)
  · rintro c _ c' _ k ⟨i, b, hb⟩ ⟨j, b', hb'⟩
    have : ∀ b : Bool, b.toNat < 2 := by decide
    have h1 := this b
    have h2 := this b'
    have : (ml c i).val = (ml c' j).val := by omega
    unfold ml at this
    simp only at this
    have := i.isLt
    have := j.isLt
    exact Fin.ext (by omega)

/-! ## Wings -/

/-- The hinge and two pincers in two areas. -/
def WingKey (hinge : Fin 81) (a : Pos.Cells × Pos.Cells) (k : Key) : Prop :=
  ∃ p1 p2 : Fin 81, a.1.getLsbD p1.val = true ∧ a.2.getLsbD p2.val = true ∧ k = (hinge.val, 0, {p1.val, p2.val})

theorem elems_pair (p1 p2 : Fin 81) :
    elems (union (Pos.cellCells p1) (Pos.cellCells p2)) = {p1.val, p2.val} := by
  ext i
  rw [mem_elems, bit_union, Bool.or_eq_true, bit_cellCells, bit_cellCells, Finset.mem_insert, Finset.mem_singleton]

theorem pair_eq {a b c d : Nat} (h : ({a, b} : Finset Nat) = {c, d}) : (a = c ∧ b = d) ∨ (a = d ∧ b = c) := by
  have h1 : a ∈ ({c, d} : Finset Nat) := by rw [← h]; simp
  have h2 : b ∈ ({c, d} : Finset Nat) := by rw [← h]; simp
  have h3 : c ∈ ({a, b} : Finset Nat) := by rw [h]; simp
  have h4 : d ∈ ({a, b} : Finset Nat) := by rw [h]; simp
  simp only [Finset.mem_insert, Finset.mem_singleton] at h1 h2 h3 h4
  omega

/-- The two areas have no common cell. -/
theorem area_disjoint : ∀ hinge : Fin 81, ∀ a ∈ [(wingAreas hinge).1, (wingAreas hinge).2.1, (wingAreas hinge).2.2],
    ∀ c : Fin 81, ¬ (a.1.getLsbD c.val = true ∧ a.2.getLsbD c.val = true) := by
  intro hinge a ha c
  obtain ⟨a1, a2, a3, a4, a5, a6⟩ := areas_bits hinge c
  simp only [List.mem_cons, List.not_mem_nil, or_false] at ha
  rcases ha with rfl | rfl | rfl
  · rw [a1, a2]; omega
  · rw [a3, a4]; omega
  · rw [a5, a6]
    rintro ⟨⟨h1, h2⟩, h3, _⟩
    by_cases hc : hinge = c
    · subst hc; exact h2 rfl
    · exact row_col_ne hc h1 h3

theorem wingKey_inj {hinge : Fin 81} {a b : Pos.Cells × Pos.Cells}
    (ha : a ∈ [(wingAreas hinge).1, (wingAreas hinge).2.1, (wingAreas hinge).2.2])
    (hb : b ∈ [(wingAreas hinge).1, (wingAreas hinge).2.1, (wingAreas hinge).2.2]) {k : Key} (h1 : WingKey hinge a k)
    (h2 : WingKey hinge b k) : a = b := by
  obtain ⟨p1, p2, x1, x2, rfl⟩ := h1
  obtain ⟨q1, q2, y1, y2, e⟩ := h2
  obtain ⟨a1, a2, a3, a4, a5, a6⟩ := areas_bits hinge p1
  obtain ⟨b1, b2, b3, b4, b5, b6⟩ := areas_bits hinge p2
  have no : ∀ c : Fin 81, ¬ (rowOf c = rowOf hinge ∧ colOf c = colOf hinge ∧ blockOf c ≠ blockOf hinge) := by
    rintro c ⟨h1, h2, h3⟩
    by_cases hc : hinge = c
    · rw [hc] at h3; exact h3 rfl
    · exact row_col_ne hc h1 h2
  have n1 := no p1
  have n2 := no p2
  have e : ({p1.val, p2.val} : Finset Nat) = {q1.val, q2.val} := kk_inj _ _ e
  simp only [List.mem_cons, List.not_mem_nil, or_false] at ha hb
  rcases pair_eq e with ⟨e1, e2⟩ | ⟨e1, e2⟩
  · have e1 := Fin.ext e1
    have e2 := Fin.ext e2
    subst e1 e2
    rcases ha with rfl | rfl | rfl <;> rcases hb with rfl | rfl | rfl <;>
      simp only [a1, a2, a3, a4, a5, a6, b1, b2, b3, b4, b5, b6] at x1 x2 y1 y2 <;> first | rfl | (exfalso; clear no; omega)
  · have e1 := Fin.ext e1
    have e2 := Fin.ext e2
    subst e1 e2
    rcases ha with rfl | rfl | rfl <;> rcases hb with rfl | rfl | rfl <;>
      simp only [a1, a2, a3, a4, a5, a6, b1, b2, b3, b4, b5, b6] at x1 x2 y1 y2 <;> first | rfl | (exfalso; clear no; omega)

theorem wingPairs_adds {cp : Vector DigitSet 81} {common : UInt8} {stop : Bool}
    {onWing : Solver → Fin 81 → Fin 81 → Res (Solver × Bool)} {hinge : Fin 81}
    {a : Pos.Cells × Pos.Cells} (ha : a ∈ [(wingAreas hinge).1, (wingAreas hinge).2.1, (wingAreas hinge).2.2])
    (hon : ∀ p1 p2 : Fin 81, AddsBy hid (· = (hinge.val, 0, {p1.val, p2.val})) (fun s => onWing s p1 p2)) :
    AddsBy hid (WingKey hinge a) (fun s => wingPairs cp stop common onWing hinge s a) := by
  have hw := wingArea_spec hinge a ha
  have hd := area_disjoint hinge a ha
  unfold wingPairs bivalueCells
  rw [items_eq (by omega) (by omega) hw.1, items_eq (by omega) (by omega) hw.2.1]
  simp only [Res.ok_bind]
  have in1 : ∀ {p : Fin 81} {q : Fin 81 → Bool}, p ∈ (mems 81 a.1).filter q → a.1.getLsbD p.val = true :=
    fun h => mem_mems.mp (List.mem_of_mem_filter h)
  have in2 : ∀ {p : Fin 81} {q : Fin 81 → Bool}, p ∈ (mems 81 a.2).filter q → a.2.getLsbD p.val = true :=
    fun h => mem_mems.mp (List.mem_of_mem_filter h)
  refine AddsBy.mono (forUntil_adds (fun (p1 : Fin 81) (k : Key) => ∃ p2 : Fin 81, a.2.getLsbD p2.val = true ∧
    k = (hinge.val, 0, {p1.val, p2.val})) _ ((nodup_mems _).filter _) (fun p1 h1 => ?_) ?_)
    (fun k ⟨p1, h1, p2, h2, e⟩ => ⟨p1, p2, in1 h1, h2, e⟩)
  · refine AddsBy.mono (forUntil_adds (fun (p2 : Fin 81) (k : Key) => k = (hinge.val, 0, {p1.val, p2.val})) _
      ((nodup_mems _).filter _) (fun p2 h2 => ?_) ?_) (fun k ⟨p2, h2, e⟩ => ⟨p2, in2 h2, e⟩)
    · by_cases hne : len (inter cp[p1] cp[p2]) ≠ 1 ∨ len (union (union cp[p1] cp[p2]) cp[hinge]) ≠ 3
      · simp only [if_pos hne]
        exact AddsBy.skip _
      · simp only [if_neg hne]
        exact AddsBy.stopped (hon p1 p2) (fun b => b && stop)
    · rintro p _ q _ k rfl e
      have e : ({p1.val, p.val} : Finset Nat) = {p1.val, q.val} := kk_inj _ _ e
      rcases pair_eq e with ⟨_, e⟩ | ⟨e1, e2⟩
      · exact Fin.ext e
      · exact Fin.ext (by omega)
  · rintro p h1 q h1' k ⟨p2, h2, rfl⟩ ⟨q2, h2', e⟩
    have e : ({p.val, p2.val} : Finset Nat) = {q.val, q2.val} := kk_inj _ _ e
    rcases pair_eq e with ⟨e, _⟩ | ⟨e1, e2⟩
    · exact Fin.ext e
    · have e1 := Fin.ext e1
      subst e1
      exact (hd _ ⟨in1 h1, h2'⟩).elim

theorem onXy_adds {cp : Vector DigitSet 81} (hinge p1 p2 : Fin 81) :
    AddsBy hid (· = (hinge.val, 0, {p1.val, p2.val})) (fun s => onXyWing cp hinge s p1 p2) := by
  refine AddsBy.enter fun s r he => ?_
  unfold onXyWing at he
  obtain ⟨z, _, he⟩ := bind_ok he
  rw [items_eq (by omega) (by omega) (fits_neighbors p1).inter_left, Res.ok_bind] at he
  cases he
  refine ⟨_, _, rfl, nodup_cells (nodup_mems _) cp z, fun _ => rfl, fun _ => ?_⟩
  show (_, _, _) = _
  rw [elems_pair]

theorem onXyz_adds {cp : Vector DigitSet 81} (hinge p1 p2 : Fin 81) :
    AddsBy hid (· = (hinge.val, 0, {p1.val, p2.val})) (fun s => onXyzWing cp hinge s p1 p2) := by
  refine AddsBy.enter fun s r he => ?_
  unfold onXyzWing at he
  obtain ⟨z, _, he⟩ := bind_ok he
  dsimp only at he
  obtain ⟨_, _, he⟩ := bind_ok he
  rw [items_eq (by omega) (by omega) (fits_neighbors hinge).inter_left.inter_left, Res.ok_bind] at he
  cases he
  refine ⟨_, _, rfl, nodup_cells (nodup_mems _) cp z, fun _ => rfl, fun _ => ?_⟩
  show (_, _, _) = _
  rw [elems_pair]

theorem wingKey_hinge {h h' : Fin 81} {k : Key} {a b : Pos.Cells × Pos.Cells} (h1 : WingKey h a k) (h2 : WingKey h' b k) :
    h = h' := by
  obtain ⟨_, _, _, _, rfl⟩ := h1
  obtain ⟨_, _, _, _, e⟩ := h2
  exact Fin.ext (congrArg Prod.fst e)

theorem areas_nodup : ∀ hinge : Fin 81, [(wingAreas hinge).1, (wingAreas hinge).2.1, (wingAreas hinge).2.2].Nodup ∧
    [(wingAreas hinge).1, (wingAreas hinge).2.1].Nodup := by decide +kernel

theorem xyWing_adds (cp : Vector DigitSet 81) (stop : Bool) : AddsBy hid (fun k => ∃ hinge : Fin 81,
      ∃ a ∈ [(wingAreas hinge).1, (wingAreas hinge).2.1, (wingAreas hinge).2.2], WingKey hinge a k)
    (forUntil (fun s' hinge =>
      if len cp[hinge] ≠ 2 then .ok (s', false)
      else
        let areas := wingAreas hinge
        forUntil (wingPairs cp stop 1 (onXyWing cp hinge) hinge) [areas.1, areas.2.1, areas.2.2] s')
      (List.finRange 81)) := by
  refine AddsBy.mono (forUntil_adds (fun (hinge : Fin 81) (k : Key) =>
    ∃ a ∈ [(wingAreas hinge).1, (wingAreas hinge).2.1, (wingAreas hinge).2.2], WingKey hinge a k) _ (List.nodup_finRange 81)
    (fun hinge _ => ?_) ?_) (fun k ⟨x, _, h⟩ => ⟨x, h⟩)
  · by_cases hlen : len cp[hinge] ≠ 2
    · simp only [if_pos hlen]
      exact AddsBy.skip _
    · simp only [if_neg hlen]
      refine forUntil_adds (WingKey hinge) _ (areas_nodup hinge).1 (fun a ha => wingPairs_adds ha (onXy_adds hinge))
        (fun a ha b hb k => wingKey_inj ha hb)
  · rintro x _ y _ k ⟨_, _, h1⟩ ⟨_, _, h2⟩
    exact wingKey_hinge h1 h2

theorem xyzWing_adds (cp : Vector DigitSet 81) (stop : Bool) : AddsBy hid (fun k => ∃ hinge : Fin 81,
      ∃ a ∈ [(wingAreas hinge).1, (wingAreas hinge).2.1], WingKey hinge a k)
    (forUntil (fun s' hinge =>
      if len cp[hinge] ≠ 3 then .ok (s', false)
      else
        let areas := wingAreas hinge
        forUntil (wingPairs cp stop 2 (onXyzWing cp hinge) hinge) [areas.1, areas.2.1] s')
      (List.finRange 81)) := by
  have up : ∀ {hinge : Fin 81} {a : Pos.Cells × Pos.Cells}, a ∈ [(wingAreas hinge).1, (wingAreas hinge).2.1] →
      a ∈ [(wingAreas hinge).1, (wingAreas hinge).2.1, (wingAreas hinge).2.2] := by
    intro hinge a ha
    simp only [List.mem_cons, List.not_mem_nil, or_false] at ha ⊢
    tauto
  refine AddsBy.mono (forUntil_adds (fun (hinge : Fin 81) (k : Key) =>
    ∃ a ∈ [(wingAreas hinge).1, (wingAreas hinge).2.1], WingKey hinge a k) _ (List.nodup_finRange 81)
    (fun hinge _ => ?_) ?_) (fun k ⟨x, _, h⟩ => ⟨x, h⟩)
  · by_cases hlen : len cp[hinge] ≠ 3
    · simp only [if_pos hlen]
      exact AddsBy.skip _
    · simp only [if_neg hlen]
      refine forUntil_adds (WingKey hinge) _ (areas_nodup hinge).2 (fun a ha => wingPairs_adds (up ha) (onXyz_adds hinge))
        (fun a ha b hb k => wingKey_inj (up ha) (up hb))
  · rintro x _ y _ k ⟨_, _, h1⟩ ⟨_, _, h2⟩
    exact wingKey_hinge h1 h2

end Verif.Strat
