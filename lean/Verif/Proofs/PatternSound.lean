import Verif.Proofs.StratSubsets

/-!
# The patterns are valid arguments
-/
namespace Verif.Pattern

open Strat

theorem InHouse.same {h : Nat} {c c' : Fin 81} (h1 : InHouse h c) (h2 : InHouse h c') : SameHouse c c' := by
  unfold InHouse at h1 h2
  unfold SameHouse
  split at h1
  · rename_i hh
    rw [if_pos hh] at h2
    exact Or.inl (h1.trans h2.symm)
  · rename_i hh
    rw [if_neg hh] at h2
    split at h1
    · rename_i hh
      rw [if_pos hh] at h2
      exact Or.inr (Or.inl (h1.trans h2.symm))
    · rename_i hh
      rw [if_neg hh] at h2
      exact Or.inr (Or.inr (h1.trans h2.symm))

/-- The solved grid `t` has only candidates, apart from cells already filled. -/
structure Fit (cand : Fin 81 → Digit → Prop) (t : Grid) : Prop where
  solved : Solved t
  cands : ∀ (c : Fin 81) (d : Digit), t[c] = d.get →
    cand c d ∨ ((∀ d', ¬ cand c d') ∧ ∀ c' : Fin 81, SameHouse c' c → ¬ cand c' d)

theorem Fit.open {cand : Fin 81 → Digit → Prop} {t : Grid} (h : Fit cand t) {c : Fin 81} (hc : ∃ d, cand c d) {d : Digit}
    (hd : t[c] = d.get) : cand c d := by
  rcases h.cands c d hd with h1 | ⟨h1, -⟩
  · exact h1
  · obtain ⟨d', hd'⟩ := hc
    exact absurd hd' (h1 d')

theorem Fit.place {cand : Fin 81 → Digit → Prop} {t : Grid} (h : Fit cand t) {n : Nat} (hn : n < 27) {d : Digit}
    (hc : ∃ c, InHouse n c ∧ cand c d) : ∃ c, InHouse n c ∧ t[c] = d.get ∧ cand c d := by
  obtain ⟨p, hp⟩ := exists_pos h.solved ⟨n, hn⟩ d
  have hin : InHouse n (Pos.houseCellAt ⟨n, hn⟩ p) := (hca_inHouse ⟨n, hn⟩ p).1
  refine ⟨_, hin, hp, ?_⟩
  rcases h.cands _ d hp with h1 | ⟨-, h1⟩
  · exact h1
  · obtain ⟨c', h2, h3⟩ := hc
    exact absurd h3 (h1 c' (h2.same hin))

theorem Fit.twice {cand : Fin 81 → Digit → Prop} {t : Grid} (h : Fit cand t) {c c' : Fin 81} {d : Digit}
    (h1 : t[c] = d.get) (h2 : t[c'] = d.get) (hs : SameHouse c c') : c = c' := by
  by_contra hne
  exact h.solved.2 c c' hne hs (h1.trans h2.symm)

theorem NakedSingle.sound {cand : Fin 81 → Digit → Prop} {t : Grid} (h : Fit cand t) {e : Candidate}
    (hm : NakedSingle cand e) : t[e.cell] = e.digit.get := by
  have h1 := dig_spec h.solved e.cell
  rw [← (hm _).mp (h.open ⟨_, (hm e.digit).mpr rfl⟩ h1)]
  exact h1

theorem HiddenSingle.sound {cand : Fin 81 → Digit → Prop} {t : Grid} (h : Fit cand t) {e : Candidate} {n : Nat}
    (hn : n < 27) (hm : HiddenSingle cand e n) : t[e.cell] = e.digit.get := by
  obtain ⟨hin, hm⟩ := hm
  obtain ⟨c, h1, h2, h3⟩ := h.place hn ⟨_, hin, (hm _ hin).mpr rfl⟩
  rw [← h2, (hm c h1).mp h3]

theorem Locked.sound {cand : Fin 81 → Digit → Prop} {t : Grid} (h : Fit cand t) {digit : Digit} {h1 h2 : Nat}
    (hn : h1 < 27) {l : List Candidate} (hm : Locked cand digit h1 h2 l) : ∀ e ∈ l, t[e.cell] ≠ e.digit.get := by
  obtain ⟨ho, hin, -, hl⟩ := hm
  rintro ⟨c, d⟩ he hc
  change t[c] = d.get at hc
  obtain ⟨⟨rfl, hc2, hc1⟩, -⟩ := (hl c d).mp he
  obtain ⟨c', g1, g2, g3⟩ := h.place hn ho
  have := h.twice g2 hc ((hin c' g1 g3).same hc2)
  exact hc1 (this ▸ g1)

theorem pigeon {A B : Finset ℕ} (f : ℕ → ℕ) (hm : ∀ a ∈ A, f a ∈ B) (hi : ∀ a ∈ A, ∀ a' ∈ A, f a = f a' → a = a')
    (hc : A.card = B.card) : ∀ b ∈ B, ∃ a ∈ A, f a = b := by
  intro b hb
  have := Finset.surjOn_of_injOn_of_card_le f (s := A) (t := B) hm (fun a ha a' ha' h => hi a ha a' ha' h) hc.ge hb
  obtain ⟨a, ha, h⟩ := this
  exact ⟨a, ha, h⟩

theorem NakedSubset.sound {cand : Fin 81 → Digit → Prop} {t : Grid} (h : Fit cand t) {n : Nat} {house : Fin 27}
    {p : PosSet} {ds : DigitSet} {l : List Candidate} (hm : NakedSubset cand n house p ds l) :
    ∀ e ∈ l, t[e.cell] ≠ e.digit.get := by
  obtain ⟨c1, c2, hp9, -, ho, -, hl⟩ := hm
  rintro ⟨c, d⟩ he hc
  change t[c] = d.get at hc
  obtain ⟨⟨hin, hnp, hd⟩, -⟩ := (hl c d).mp he
  let cell : ℕ → Fin 81 := fun i => Pos.houseCellAt house ⟨i % 9, by omega⟩
  have hcell : ∀ i < 9, InHouse house (cell i) ∧ posIn house (cell i) = i := by
    intro i hi
    obtain ⟨g1, g2⟩ := hca_inHouse house ⟨i % 9, by omega⟩
    exact ⟨g1, g2.trans (Nat.mod_eq_of_lt hi)⟩
  obtain ⟨a, ha, hfa⟩ := pigeon (A := elems p) (B := elems ds) (fun i => (dig t (cell i)).val) (by
      intro a ha
      obtain ⟨g1, g2⟩ := hcell a (hp9 a ha)
      obtain ⟨g3, g4⟩ := ho _ g1 (by rw [g2]; exact ha)
      exact g4 _ (h.open g3 (dig_spec h.solved _))) (by
      intro a ha a' ha' hf
      obtain ⟨g1, g2⟩ := hcell a (hp9 a ha)
      obtain ⟨g1', g2'⟩ := hcell a' (hp9 a' ha')
      have := h.twice (dig_spec h.solved (cell a)) (by rw [Fin.ext hf]; exact dig_spec h.solved (cell a')) (g1.same g1')
      rw [← g2, ← g2', this]) (c1.trans c2.symm) d.val hd
  obtain ⟨g1, g2⟩ := hcell a (hp9 a ha)
  have h1 : t[cell a] = d.get := by rw [dig_spec h.solved (cell a)]; exact congrArg Digit.get (Fin.ext hfa)
  have := h.twice h1 hc (g1.same hin)
  exact hnp (by rw [← this, g2]; exact ha)

theorem HiddenSubset.sound {cand : Fin 81 → Digit → Prop} {t : Grid} (h : Fit cand t) {n : Nat} {house : Fin 27}
    {p : PosSet} {ds : DigitSet} {l : List Candidate} (hm : HiddenSubset cand n house p ds l) :
    ∀ e ∈ l, t[e.cell] ≠ e.digit.get := by
  obtain ⟨c1, c2, -, hd9, ho, -, hl⟩ := hm
  rintro ⟨c, d⟩ he hc
  change t[c] = d.get at hc
  obtain ⟨⟨hin, hp, hnd⟩, -⟩ := (hl c d).mp he
  have hex : ∀ i : ℕ, ∃ q : ℕ, ∀ hi : i < 9, Has ds i → ∃ c', InHouse house c' ∧ posIn house c' = q ∧
      t[c'] = Digit.get ⟨i, hi⟩ ∧ Has p q := by
    intro i
    by_cases hi : i < 9 ∧ Has ds i
    · obtain ⟨hi, hdi⟩ := hi
      obtain ⟨g1, g2⟩ := ho ⟨i, hi⟩ hdi
      obtain ⟨c', g3, g4, g5⟩ := h.place house.isLt g1
      exact ⟨posIn house c', fun _ _ => ⟨c', g3, rfl, g4, g2 c' g3 g5⟩⟩
    · exact ⟨0, fun h1 h2 => absurd ⟨h1, h2⟩ hi⟩
  choose f hf using hex
  have hsame : ∀ c c' : Fin 81, InHouse house c → InHouse house c' → posIn house c = posIn house c' → c = c' := by
    intro c c' g1 g2 g3
    obtain ⟨q, rfl, e1⟩ := inHouse_hca g1
    obtain ⟨q', rfl, e2⟩ := inHouse_hca g2
    rw [Fin.ext (e1.symm.trans (g3.trans e2))]
  obtain ⟨a, ha, hfa⟩ := pigeon (A := elems ds) (B := elems p) f (by
      intro a ha
      obtain ⟨c', -, -, -, g⟩ := hf a (hd9 a ha) ha
      exact g) (by
      intro a ha a' ha' he
      obtain ⟨x, g1, g2, g3, -⟩ := hf a (hd9 a ha) ha
      obtain ⟨x', g1', g2', g3', -⟩ := hf a' (hd9 a' ha') ha'
      have := hsame x x' g1 g1' (by rw [g2, g2', he])
      subst this
      exact congrArg Fin.val (Digit.get_inj (g3.symm.trans g3'))) (c2.trans c1.symm) _ hp
  obtain ⟨x, g1, g2, g3, -⟩ := hf a (hd9 a ha) ha
  have := hsame x c g1 hin (g2.trans hfa)
  subst this
  have := congrArg Fin.val (Digit.get_inj (g3.symm.trans hc))
  exact hnd (by rw [← this]; exact ha)

theorem cross {dir l l' : Nat} (hd : dir = 0 ∨ dir = 9) (h1 : dir ≤ l ∧ l < dir + 9) (h2 : dir ≤ l' ∧ l' < dir + 9)
    {c c' : Fin 81} (hp : posIn l c = posIn l' c') : SameHouse c c' := by
  unfold posIn at hp
  rcases hd with rfl | rfl
  · rw [if_pos (show l < 9 by omega), if_pos (show l' < 9 by omega)] at hp
    exact Or.inr (Or.inl hp)
  · rw [if_neg (show ¬ l < 9 by omega), if_neg (show ¬ l' < 9 by omega), if_pos (show l < 18 by omega),
      if_pos (show l' < 18 by omega)] at hp
    exact Or.inl hp

theorem sameLine {dir l l' : Nat} (hd : dir = 0 ∨ dir = 9) (h1 : dir ≤ l ∧ l < dir + 9) (h2 : dir ≤ l' ∧ l' < dir + 9)
    {c : Fin 81} (g1 : InHouse l c) (g2 : InHouse l' c) : l = l' := by
  unfold InHouse at g1 g2
  rcases hd with rfl | rfl
  · rw [if_pos (by omega)] at g1 g2
    omega
  · rw [if_neg (by omega), if_pos (by omega)] at g1 g2
    omega

theorem BasicFish.sound {cand : Fin 81 → Digit → Prop} {t : Grid} (h : Fit cand t) {n : Nat} {digit : Digit}
    {lines : LineSet} {p : PosSet} {l : List Candidate} (hm : BasicFish cand n digit lines p l) :
    ∀ e ∈ l, t[e.cell] ≠ e.digit.get := by
  obtain ⟨c1, c2, -, dir, hdir, hr, ho, -, hl⟩ := hm
  rintro ⟨c, d⟩ he hc
  change t[c] = d.get at hc
  obtain ⟨⟨rfl, ln, g1, g2, g3, g4, g5⟩, -⟩ := (hl c d).mp he
  have hex : ∀ i : ℕ, ∃ q : ℕ, Has lines i → ∃ c', InHouse i c' ∧ posIn i c' = q ∧ t[c'] = d.get ∧ Has p q := by
    intro i
    by_cases hi : Has lines i
    · obtain ⟨f1, f2⟩ := ho i hi
      have := hr i hi
      obtain ⟨c', f3, f4, f5⟩ := h.place (by omega) f1
      exact ⟨_, fun _ => ⟨c', f3, rfl, f4, f2 c' f3 f5⟩⟩
    · exact ⟨0, fun h1 => absurd h1 hi⟩
  choose f hf using hex
  obtain ⟨a, ha, hfa⟩ := pigeon (A := elems lines) (B := elems p) f (by
      intro a ha
      obtain ⟨c', -, -, -, g⟩ := hf a ha
      exact g) (by
      intro a ha a' ha' he
      obtain ⟨x, f1, f2, f3, -⟩ := hf a ha
      obtain ⟨x', f1', f2', f3', -⟩ := hf a' ha'
      have := h.twice f3 f3' (cross hdir (hr a ha) (hr a' ha') (by rw [f2, f2', he]))
      subst this
      exact sameLine hdir (hr a ha) (hr a' ha') f1 f1') (c1.trans c2.symm) _ g5
  obtain ⟨x, f1, f2, f3, -⟩ := hf a ha
  have := h.twice f3 hc (cross hdir (hr a ha) ⟨g1, g2⟩ (f2.trans hfa))
  subst this
  exact g3 (sameLine hdir (hr a ha) ⟨g1, g2⟩ f1 g4 ▸ ha)

theorem Wing.sound {cand : Fin 81 → Digit → Prop} {t : Grid} (h : Fit cand t) {withZ : Bool} {hinge : Fin 81}
    {hd : DigitSet} {pincers : Pos.Cells} {l : List Candidate} (hm : Wing cand withZ hinge hd pincers l) :
    ∀ e ∈ l, t[e.cell] ≠ e.digit.get := by
  obtain ⟨p1, p2, x, y, z, -, -, s1, s2, -, -, -, k1, k2, kh, -, -, hl⟩ := hm
  rintro ⟨c, d⟩ he hc
  change t[c] = d.get at hc
  obtain ⟨⟨rfl, v1, v2, v3⟩, -⟩ := (hl c d).mp he
  have hs : ∀ {a b : Fin 81} {w : Digit}, Sees a b → t[a] = w.get → t[b] = w.get → False :=
    fun hab ha hb => hab.1 (h.twice ha hb hab.2)
  have t1 : t[p1] = x.get := by
    have e := dig_spec h.solved p1
    rcases (k1 _).mp (h.open ⟨x, (k1 x).mpr (Or.inl rfl)⟩ e) with hx | hx
    · rw [← hx]; exact e
    · rw [hx] at e; exact (hs v1 hc e).elim
  have t2 : t[p2] = y.get := by
    have e := dig_spec h.solved p2
    rcases (k2 _).mp (h.open ⟨y, (k2 y).mpr (Or.inl rfl)⟩ e) with hx | hx
    · rw [← hx]; exact e
    · rw [hx] at e; exact (hs v2 hc e).elim
  have e := dig_spec h.solved hinge
  rcases (kh _).mp (h.open ⟨x, (kh x).mpr (Or.inl rfl)⟩ e) with hx | hx | ⟨hw, hx⟩
  · rw [hx] at e; exact hs s1 e t1
  · rw [hx] at e; exact hs s2 e t2
  · rw [hx] at e; exact hs (v3 hw) hc e

/-- A deduction with the pattern of a strategy is right about every solution within the candidates. -/
theorem Matches.sound {cand : Fin 81 → Digit → Prop} {t : Grid} (h : Fit cand t) {st : Strategy}
    {d : Deduction (List Candidate)} (hm : Matches cand st d) :
    (∀ e, entry d = some e → t[e.cell] = e.digit.get) ∧ ∀ e ∈ removed d, t[e.cell] ≠ e.digit.get := by
  have h54 : ∀ m : Fin 54, miniLine m < 27 ∧ miniBlock m < 27 := by decide
  have hno : ∀ l : List Candidate, (∀ e ∈ l, t[e.cell] ≠ e.digit.get) →
    (∀ e, (none : Option Candidate) = some e → t[e.cell] = e.digit.get) ∧ ∀ e ∈ l, t[e.cell] ≠ e.digit.get :=
    fun l hl => ⟨fun e he => (by simp at he), hl⟩
  unfold Matches at hm
  split at hm
  · exact ⟨fun e he => (Option.some.inj he) ▸ hm.sound h, fun e he => absurd he List.not_mem_nil⟩
  · rename_i e0 h0
    have h27 : houseNr h0 < 27 := by cases h0 <;> simp only [houseNr] <;> omega
    exact ⟨fun e he => (Option.some.inj he) ▸ hm.sound h h27, fun e he => absurd he List.not_mem_nil⟩
  · rename_i digit m ip l
    refine hno l ?_
    split at hm
    · exact hm.sound h (h54 m).2
    · exact hm.sound h (h54 m).1
  · exact hno _ (hm.sound h)
  · exact hno _ (hm.sound h)
  · exact hno _ (hm.sound h)
  · exact hno _ (hm.sound h)
  · exact hno _ (hm.sound h)
  · exact hno _ (hm.sound h)
  · exact hno _ (hm.sound h)
  · exact hno _ (hm.sound h)
  · exact hno _ (hm.sound h)
  · exact hno _ (hm.sound h)
  · exact hno _ (hm.sound h)
  · exact hm.elim

/-- The candidates left by entries and exclusions that are right about `t`. -/
theorem Fit.after {E R : List Candidate} {t : Grid} (ht : Solved t) (hE : ∀ e ∈ E, t[e.cell] = e.digit.get)
    (hR : ∀ e ∈ R, t[e.cell] ≠ e.digit.get) : Fit (after E R) t := by
  refine ⟨ht, ?_⟩
  intro c d hc
  by_cases he : ∃ e ∈ E, e.cell = c
  · right
    obtain ⟨e, he, rfl⟩ := he
    have : e.digit = d := Digit.get_inj ((hE e he).symm.trans hc)
    subst this
    exact ⟨fun d' hd' => (hd'.2 e he).1 rfl, fun c' hs hd' => (hd'.2 e he).2 ⟨hs.imp Eq.symm (Or.imp Eq.symm Eq.symm), rfl⟩⟩
  · left
    refine ⟨fun hm => hR _ hm hc, fun e hm => ⟨fun hce => he ⟨e, hm, hce⟩, ?_⟩⟩
    rintro ⟨hs, rfl⟩
    exact ht.2 e.cell c (fun hce => he ⟨e, hm, hce⟩) hs ((hE e hm).trans hc.symm)

end Verif.Pattern
