import Verif.Proofs.StratWings

/-! # The strategy solver: searches that find nothing -/
namespace Verif.Strat

open Bitset Generator

/-- No candidate of the kind `Sel` was eliminated in between. -/
def Calm (Sel : Candidate → Prop) (s s' : Solver) : Prop := ∀ e ∈ s'.eliminated.drop s.eliminated.length, ¬ Sel e

theorem Calm.refl {Sel : Candidate → Prop} (s : Solver) : Calm Sel s s := by
  intro e he
  rw [List.drop_length] at he
  cases he

theorem Calm.of_length {Sel : Candidate → Prop} {s s' : Solver} (h : s'.eliminated.length = s.eliminated.length) :
    Calm Sel s s' := by
  intro e he
  rw [← h, List.drop_length] at he
  cases he

theorem Calm.left {Sel : Candidate → Prop} {s s1 s2 : Solver} (h1 : s.eliminated <+: s1.eliminated)
    (h2 : s1.eliminated <+: s2.eliminated) (h : Calm Sel s s2) : Calm Sel s s1 := by
  obtain ⟨x, hx⟩ := h1
  obtain ⟨y, hy⟩ := h2
  intro e he
  refine h e ?_
  rw [← hx, List.drop_left] at he
  rw [← hy, ← hx, List.append_assoc, List.drop_left]
  exact List.mem_append_left _ he

theorem Calm.right {Sel : Candidate → Prop} {s s1 s2 : Solver} (h1 : s.eliminated <+: s1.eliminated)
    (h2 : s1.eliminated <+: s2.eliminated) (h : Calm Sel s s2) : Calm Sel s1 s2 := by
  obtain ⟨x, hx⟩ := h1
  obtain ⟨y, hy⟩ := h2
  intro e he
  refine h e ?_
  rw [← hy, List.drop_left] at he
  rw [← hy, ← hx, List.append_assoc, List.drop_left]
  exact List.mem_append_right _ he

/-- Nothing is taken back, and if no candidate of the kind `Sel` was eliminated then the search was not stopped and `P`
holds. -/
def Quiet (Sel : Candidate → Prop) (f : Solver → Res (Solver × Bool)) (P : Prop) : Prop := ∀ s r, f s = .ok r →
  s.eliminated <+: r.1.eliminated ∧ (Calm Sel s r.1 → r.2 = false ∧ P)

/-- The same for a function that says whether it eliminated anything. -/
def Soft (Sel : Candidate → Prop) (f : Solver → Res (Solver × Bool)) (P : Prop) : Prop := ∀ s r, f s = .ok r →
  s.eliminated <+: r.1.eliminated ∧ (Calm Sel s r.1 → ((∀ e, Sel e) → r.2 = false) ∧ P)

variable {Sel : Candidate → Prop}

theorem Quiet.skip {P : Prop} (h : P) : Quiet Sel (fun s => .ok (s, false)) P := by
  intro s r he
  cases he
  exact ⟨List.prefix_rfl, fun _ => ⟨rfl, h⟩⟩

theorem Quiet.mono {f : Solver → Res (Solver × Bool)} {P P' : Prop} (h : Quiet Sel f P) (hp : P → P') : Quiet Sel f P' :=
  fun s r he => ⟨(h s r he).1, fun hl => ⟨((h s r he).2 hl).1, hp ((h s r he).2 hl).2⟩⟩

theorem Quiet.congr {f g : Solver → Res (Solver × Bool)} {P : Prop} (h : Quiet Sel f P) (he : ∀ s, g s = f s) :
    Quiet Sel g P := by
  intro s r hg
  rw [he] at hg
  exact h s r hg

theorem bind_ok {α β : Type} {x : Res α} {f : α → Res β} {r : β} (h : x >>= f = .ok r) :
    ∃ a, x = .ok a ∧ f a = .ok r := by
  cases x with
  | ok a => exact ⟨a, rfl, h⟩
  | err => cases h
  | panic => cases h
  | timeout => cases h

/-- The search is stopped by what it found. -/
theorem Soft.stopped {f : Solver → Res (Solver × Bool)} {P : Prop} (h : Soft Sel f P) (g : Bool → Bool)
    (hg : g false = false) (hs : (∀ b, g b = false) ∨ ∀ e, Sel e) :
    Quiet Sel (fun s => f s >>= fun r => .ok (r.1, g r.2)) P := by
  intro s r he
  obtain ⟨r', h1, h2⟩ := bind_ok he
  cases h2
  obtain ⟨h3, h4⟩ := h s r' h1
  refine ⟨h3, fun hl => ⟨?_, (h4 hl).2⟩⟩
  rcases hs with hs | hs
  · exact hs _
  · dsimp only
    rw [(h4 hl).1 hs, hg]

theorem enterConflicts_quiet (l : List Candidate) (mk : Nat × Nat → RangeDeduction) :
    Soft Sel (fun s => .ok (s.enterConflicts l mk)) (∀ e ∈ l, ¬ Sel e) := by
  intro s r he
  cases he
  have key : ∀ s' : Solver, s'.eliminated = s.eliminated ++ l → s.eliminated <+: s'.eliminated ∧
      (Calm Sel s s' → ∀ e ∈ l, ¬ Sel e) := by
    intro s' h
    refine ⟨h ▸ List.prefix_append _ _, fun hc e he => hc e ?_⟩
    rw [h, List.drop_left]
    exact he
  unfold Solver.enterConflicts
  dsimp only
  split
  · rename_i h
    obtain ⟨k1, k2⟩ := key { s with eliminated := s.eliminated ++ l, deductions := s.deductions ++ [mk (s.eliminated.length, (s.eliminated ++ l).length)] } rfl
    refine ⟨k1, fun hc => ⟨fun hall => ?_, k2 hc⟩⟩
    exfalso
    cases l with
    | nil => simp at h
    | cons e l => exact k2 hc e (by simp) (hall e)
  · obtain ⟨k1, k2⟩ := key { s with eliminated := s.eliminated ++ l } rfl
    exact ⟨k1, fun hc => ⟨fun _ => rfl, k2 hc⟩⟩

theorem forUntil_quiet {α : Type} {f : Solver → α → Res (Solver × Bool)} {P : α → Prop} :
    ∀ l : List α, (∀ x ∈ l, Quiet Sel (fun s => f s x) (P x)) → Quiet Sel (forUntil f l) (∀ x ∈ l, P x) := by
  intro l
  induction l with
  | nil => intro _ s r he; cases he; exact ⟨List.prefix_rfl, fun _ => ⟨rfl, by simp⟩⟩
  | cons x xs ih =>
    intro h s r he
    unfold forUntil at he
    obtain ⟨⟨s1, stop⟩, h1, h2⟩ := bind_ok he
    obtain ⟨g1, g2⟩ := h x (by simp) s _ h1
    dsimp only at g1 g2 h2
    split at h2
    · rename_i hs
      cases h2
      refine ⟨g1, fun hl => ?_⟩
      rw [(g2 hl).1] at hs
      cases hs
    · obtain ⟨g3, g4⟩ := ih (fun y hy => h y (by simp [hy])) s1 r h2
      refine ⟨g1.trans g3, fun hl => ?_⟩
      obtain ⟨e1, e2⟩ := g4 (hl.right g1 g3)
      refine ⟨e1, fun y hy => ?_⟩
      rcases List.mem_cons.mp hy with rfl | hy
      · exact (g2 (hl.left g1 g3)).2
      · exact e2 y hy

/-- The same for looking at a combination: the search goes on below it if `cont`. -/
def QuietVisit (Sel : Candidate → Prop) (f : Solver → Res (Solver × Option Bool)) (cont P : Prop) : Prop :=
  ∀ s r, f s = .ok r → s.eliminated <+: r.1.eliminated ∧ (Calm Sel s r.1 → r.2 ≠ some true ∧ (cont → r.2 = none) ∧ P)

/-- A combination that the search looks at. -/
inductive Path {α A : Type} (step : A → α → Res (Option A)) (cont : A → Prop) : List α → A → A → Prop
  | take {x xs a g} : step a x = .ok (some g) → Path step cont (x :: xs) a g
  | more {x xs a a' g} : step a x = .ok (some a') → cont a' → Path step cont xs a' g → Path step cont (x :: xs) a g
  | skip {x xs a g} : Path step cont xs a g → Path step cont (x :: xs) a g

theorem walkLoop_quiet {α A : Type} {visit : A → Solver → Res (Solver × Option Bool)} {step : A → α → Res (Option A)}
    (I : A → Prop) (cont P : A → Prop) : ∀ (l : List α), (∀ a, I a → QuietVisit Sel (visit a) (cont a) (P a)) →
      (∀ a, ∀ x ∈ l, I a → ∀ a', step a x = .ok (some a') → I a') →
      ∀ a, I a → Quiet Sel (walkLoop visit step l a) (∀ g, Path step cont l a g → P g) := by
  intro l hv
  induction l with
  | nil =>
    intro _ a _ s r he
    cases he
    exact ⟨List.prefix_rfl, fun _ => ⟨rfl, fun g hg => by cases hg⟩⟩
  | cons x xs ih =>
    intro hs a ha s r he
    have ih := ih (fun a y hy => hs a y (by simp [hy]))
    unfold walkLoop at he
    obtain ⟨st, h1, h2⟩ := bind_ok he
    cases st with
    | none =>
      dsimp only at h2
      obtain ⟨g1, g2⟩ := ih a ha s r h2
      refine ⟨g1, fun hl => ⟨(g2 hl).1, fun g hg => ?_⟩⟩
      cases hg with
      | take hg => rw [h1] at hg; cases hg
      | more hg => rw [h1] at hg; cases hg
      | skip hg => exact (g2 hl).2 g hg
    | some a' =>
      dsimp only at h2
      obtain ⟨⟨s1, found⟩, h3, h4⟩ := bind_ok h2
      obtain ⟨⟨s2, v⟩, h5, h6⟩ := bind_ok h3
      have ha' := hs a x (by simp) ha a' h1
      obtain ⟨v1, v2⟩ := hv a' ha' s _ h5
      dsimp only at v1 v2 h4
      -- the search below
      have below : s2.eliminated <+: s1.eliminated ∧ (Calm Sel s s1 →
          found = false ∧ (cont a' → ∀ g, Path step cont xs a' g → P g)) := by
        cases v with
        | none =>
          dsimp only at h6
          obtain ⟨w1, w2⟩ := ih a' ha' s2 _ h6
          dsimp only at w1 w2
          exact ⟨w1, fun hl => ⟨(w2 (hl.right v1 w1)).1, fun _ => (w2 (hl.right v1 w1)).2⟩⟩
        | some b =>
          dsimp only at h6
          cases h6
          refine ⟨List.prefix_rfl, fun hl => ?_⟩
          obtain ⟨n1, n2, _⟩ := v2 hl
          refine ⟨?_, fun hc => ?_⟩
          · cases found with
            | false => rfl
            | true => exact absurd rfl n1
          · have := n2 hc
            cases this
      have hs1 := v1.trans below.1
      split at h4
      · rename_i hf
        cases h4
        refine ⟨hs1, fun hl => ?_⟩
        have := (below.2 hl).1
        rw [hf] at this
        cases this
      · obtain ⟨w1, w2⟩ := ih a ha s1 r h4
        refine ⟨hs1.trans w1, fun hl => ?_⟩
        obtain ⟨u1, u2⟩ := w2 (hl.right hs1 w1)
        have hl1 := hl.left hs1 w1
        obtain ⟨_, b2⟩ := below.2 hl1
        refine ⟨u1, fun g hg => ?_⟩
        cases hg with
        | take hg =>
          rw [h1] at hg
          cases hg
          exact (v2 (hl1.left v1 below.1)).2.2
        | more hg hc hp =>
          rw [h1] at hg
          cases hg
          exact b2 hc g hp
        | skip hg => exact u2 g hg

theorem walk_quiet {α A : Type} {visit : A → Solver → Res (Solver × Option Bool)} {step : A → α → Res (Option A)}
    (I : A → Prop) (cont P : A → Prop) (l : List α) (hv : ∀ a, I a → QuietVisit Sel (visit a) (cont a) (P a))
    (hs : ∀ a, ∀ x ∈ l, I a → ∀ a', step a x = .ok (some a') → I a') (a : A) (ha : I a) (hc : cont a) :
    Quiet Sel (walk visit step l a) (∀ g, Path step cont l a g → P g) := by
  intro s r he
  unfold walk at he
  obtain ⟨⟨s2, v⟩, h5, h6⟩ := bind_ok he
  obtain ⟨v1, v2⟩ := hv a ha s _ h5
  dsimp only at v1 v2
  cases v with
  | none =>
    dsimp only at h6
    obtain ⟨w1, w2⟩ := walkLoop_quiet I cont P l hv hs a ha s2 r h6
    exact ⟨v1.trans w1, fun hl => w2 (hl.right v1 w1)⟩
  | some b =>
    dsimp only at h6
    cases h6
    refine ⟨v1, fun hl => ?_⟩
    have := (v2 hl).2.1 hc
    cases this

/-- Taking the elements of a list one after the other, skipping others. -/
theorem path_sublist {α A : Type} {step : A → α → Res (Option A)} {cont : A → Prop} {st : A → α → A} {k : Nat}
    (J : Nat → A → Prop) {l' l : List α} (hsub : List.Sublist l' l) :
    ∀ n a, n + l'.length ≤ k → l' ≠ [] → J n a →
    (∀ n a, ∀ x ∈ l', J n a → step a x = .ok (some (st a x)) ∧ J (n + 1) (st a x)) →
    (∀ n a, J n a → n < k → cont a) → Path step cont l a (l'.foldl st a) := by
  induction hsub with
  | slnil => intro n a _ h; exact absurd rfl h
  | cons x _ ih => intro n a h1 h2 h3 h4 h5; exact .skip (ih n a h1 h2 h3 h4 h5)
  | @cons_cons l1 l2 x _ ih =>
    intro n a h1 _ h3 h4 h5
    obtain ⟨g1, g2⟩ := h4 n a x (by simp) h3
    rw [List.foldl_cons]
    cases hl : l1 with
    | nil => exact .take g1
    | cons y ys =>
      rw [← hl]
      rw [List.length_cons] at h1
      have : 0 < l1.length := by rw [hl]; simp
      refine .more g1 (h5 (n + 1) _ g2 (by omega)) (ih (n + 1) _ (by omega) (by rw [hl]; simp) g2 ?_ h5)
      intro n a z hz
      exact h4 n a z (by simp [hz])

/-- The combination of the elements of a list. -/
theorem bits_fold {n w : Nat} (hn : n ≤ w) {poss : Fin n → BitVec 16} : ∀ (l : List (Fin n)) (a : BitVec w × BitVec 16),
    (∀ i, (l.foldl (fun a x => (union a.1 (asSet w x.val), union a.2 (poss x))) a).1.getLsbD i = true ↔
      a.1.getLsbD i = true ∨ ∃ x ∈ l, x.val = i) ∧
    (∀ i, (l.foldl (fun a x => (union a.1 (asSet w x.val), union a.2 (poss x))) a).2.getLsbD i = true ↔
      a.2.getLsbD i = true ∨ ∃ x ∈ l, (poss x).getLsbD i = true) := by
  intro l
  induction l with
  | nil => intro a; simp
  | cons x xs ih =>
    intro a
    rw [List.foldl_cons]
    obtain ⟨h1, h2⟩ := ih (union a.1 (asSet w x.val), union a.2 (poss x))
    refine ⟨fun i => ?_, fun i => ?_⟩
    · rw [h1, bit_union, Bool.or_eq_true, bit_asSet (by omega)]
      simp only [List.exists_mem_cons_iff]
      rw [or_assoc]
    · rw [h2, bit_union, Bool.or_eq_true]
      simp only [List.exists_mem_cons_iff]
      rw [or_assoc]

/-- The search looks at every combination of `S` that is not cut off. -/
theorem path_subset {n w : Nat} (hn : n ≤ w) {step : BitVec w × BitVec 16 → Fin n → Res (Option (BitVec w × BitVec 16))}
    {cont : BitVec w × BitVec 16 → Prop} {poss : Fin n → BitVec 16} {S L : BitVec w} {T : BitVec 16} (hS : Fits n S)
    (hSL : ∀ x : Fin n, S.getLsbD x.val = true → L.getLsbD x.val = true) (h0 : 0 < (elems S).card)
    (hT : ∀ x : Fin n, S.getLsbD x.val = true → ∀ i, (poss x).getLsbD i = true → T.getLsbD i = true)
    (hstep : ∀ a : BitVec w × BitVec 16, (∀ i, a.2.getLsbD i = true → T.getLsbD i = true) →
      ∀ x : Fin n, S.getLsbD x.val = true → step a x = .ok (some (union a.1 (asSet w x.val), union a.2 (poss x))))
    (hcont : ∀ a : BitVec w × BitVec 16, (elems a.1).card < (elems S).card → cont a) :
    ∃ g, Path step cont (mems n L) (NONE w, NONE 16) g ∧ g.1 = S ∧
      ∀ i, g.2.getLsbD i = true ↔ ∃ x : Fin n, S.getLsbD x.val = true ∧ (poss x).getLsbD i = true := by
  have hlen := length_mems hS
  refine ⟨_, path_sublist (st := fun a x => (union a.1 (asSet w x.val), union a.2 (poss x))) (l' := mems n S)
    (k := (elems S).card) (fun m a => (elems a.1).card ≤ m ∧ ∀ i, a.2.getLsbD i = true → T.getLsbD i = true) ?_ 0 _
    (by omega) ?_ ?_ ?_ ?_, ?_, ?_⟩
  · unfold mems
    exact List.monotone_filter_right _ (fun x hx => hSL x hx)
  · intro h
    rw [h] at hlen
    simp at hlen
    omega
  · refine ⟨?_, fun i hi => ?_⟩
    · rw [elems_NONE]; simp
    · rw [bit_none] at hi; cases hi
  · intro m a x hx ⟨h1, h2⟩
    rw [mem_mems] at hx
    refine ⟨hstep a h2 x hx, ?_, ?_⟩
    · dsimp only
      rw [elems_union]
      refine (Finset.card_union_le _ _).trans ?_
      have : (elems (asSet w x.val)).card ≤ 1 := by
        rw [Finset.card_le_one]
        intro y hy z hz
        rw [mem_elems, bit_asSet (by omega)] at hy hz
        omega
      omega
    · intro i hi
      dsimp only at hi
      rw [bit_union, Bool.or_eq_true] at hi
      rcases hi with hi | hi
      · exact h2 i hi
      · exact hT x hx i hi
  · intro m a ⟨h1, _⟩ hm
    exact hcont a (by omega)
  · apply BitVec.eq_of_getLsbD_eq
    intro i _
    rw [Bool.eq_iff_iff, (bits_fold hn _ _).1, bit_none]
    simp only [Bool.false_eq_true, false_or, mem_mems]
    constructor
    · rintro ⟨x, hx, rfl⟩; exact hx
    · intro hi; exact ⟨⟨i, hS i hi⟩, hi, rfl⟩
  · intro i
    rw [(bits_fold hn _ _).2, bit_none]
    simp only [Bool.false_eq_true, false_or, mem_mems]

end Verif.Strat
