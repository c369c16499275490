import Verif.Proofs.StratSubsets

/-!
# The strategy solver: what updating the caches means

`Gh s g`: the grid `g` of the digits entered so far describes the caches of the state `s`, also after a contradiction.
`Closed` and `Fresh` hold as long as no contradiction was met.  `Trace s s'`: the entries made on the way agree with
every solution, and they are explained.
-/
namespace Verif

namespace Strat

open Bitset Generator

/-- The completed grid `t` contains the entries and does not contain the eliminated candidates. -/
structure Agree (t : Grid) (s : Solver) : Prop where
  ded : ∀ e ∈ s.deduced, t[e.cell] = e.digit.get
  elim : ∀ e ∈ s.eliminated, t[e.cell] ≠ e.digit.get
  grid : ∀ c : Fin 81, s.grid[c] ≠ 0 → t[c] = s.grid[c]

/-- `t` agrees with the state, and no other cell of a house repeats a digit that is an entry. -/
structure Cons (t : Grid) (s : Solver) : Prop where
  range : ∀ c : Fin 81, ∃ d : Digit, t[c] = d.get
  agree : Agree t s
  apart : ∀ e ∈ s.deduced, ∀ c : Fin 81, c ≠ e.cell → SameHouse c e.cell → t[c] ≠ e.digit.get

theorem Cons.of_solved {t : Grid} {s : Solver} (ht : Solved t) (ha : Agree t s) : Cons t s := by
  refine ⟨fun c => ⟨_, dig_spec ht c⟩, ha, fun e he c hne hs hc => ?_⟩
  exact ht.2 c e.cell hne hs (by rw [hc, ha.ded e he])

/-- `g` holds the digits entered in the caches. -/
structure Gh (s : Solver) (g : Grid) : Prop where
  fits : ∀ c : Fin 81, Fits 9 s.cp[c]
  empty : ∀ c : Fin 81, g[c] ≠ 0 → s.cp[c] = 0#16
  count : s.nSolved = clueCount g
  house : ∀ (h : Fin 27) (d : Digit), s.hs[h].getLsbD d.val = true ↔ ∃ c, Sudoku.InHouse h c ∧ g[c] = d.get
  range : ∀ c : Fin 81, g[c] ≠ 0 → ∃ d : Digit, g[c] = d.get
  distinct : ∀ c c' : Fin 81, c ≠ c' → SameHouse c c' → g[c] ≠ 0 → g[c] ≠ g[c']
  src : ∀ (c : Fin 81) (d : Digit), g[c] = d.get → (⟨c, d⟩ : Candidate) ∈ s.deduced.take s.cpNext
  lower : ∀ (c : Fin 81) (d : Digit), g[c] = 0 → (∀ c' : Fin 81, c ≠ c' → SameHouse c c' → g[c'] ≠ d.get) →
    (⟨c, d⟩ : Candidate) ∉ s.eliminated → s.cp[c].getLsbD d.val = true
  nextLe : s.cpNext ≤ s.deduced.length
  first : ∀ i e, i < s.cpNext → s.deduced[i]? = some e →
    (∀ j e', j < i → s.deduced[j]? = some e' → e'.cell ≠ e.cell) → g[e.cell] = 0 ∨ g[e.cell] = e.digit.get

/-- The cells of the processed entries have no possible digits. -/
def Closed (s : Solver) : Prop := ∀ e ∈ s.deduced.take s.cpNext, s.cp[e.cell] = 0#16

/-- No possible digit of a cell is already entered in one of its houses. -/
def Fresh (s : Solver) (g : Grid) : Prop :=
  ∀ (c c' : Fin 81) (d : Digit), c ≠ c' → SameHouse c c' → g[c] = d.get → s.cp[c'].getLsbD d.val = false

/-- The digits of the grid are entries. -/
def GridSrc (s : Solver) : Prop :=
  ∀ c : Fin 81, s.grid[c] = 0 ∨ ∃ d : Digit, s.grid[c] = d.get ∧ (⟨c, d⟩ : Candidate) ∈ s.deduced

theorem GridSrc.mem {s : Solver} (h : GridSrc s) {c : Fin 81} {d : Digit} (hc : s.grid[c] = d.get) :
    (⟨c, d⟩ : Candidate) ∈ s.deduced := by
  rcases h c with h0 | ⟨d', h1, h2⟩
  · exact absurd (hc.symm.trans h0) (Digit.get_ne_zero d)
  · rw [Digit.get_inj (hc.symm.trans h1)]
    exact h2

theorem GridSrc.pushed {s : Solver} (h : GridSrc s) (e : Candidate) (x : RangeDeduction) : GridSrc (s.pushed e x) := by
  intro c
  show (s.grid.set e.cell.val e.digit.get e.cell.isLt)[c] = 0 ∨
    ∃ d : Digit, (s.grid.set e.cell.val e.digit.get e.cell.isLt)[c] = d.get ∧ _ ∈ s.deduced ++ [e]
  rw [get_set_fin]
  split
  · rename_i ec
    subst ec
    exact Or.inr ⟨e.digit, rfl, by simp⟩
  · rcases h c with h0 | ⟨d, h1, h2⟩
    · exact Or.inl h0
    · exact Or.inr ⟨d, h1, List.mem_append_left _ h2⟩

/-- The entries made from `s` to `s'` agree with every solution and are naked singles. -/
structure Trace (fn : Bool) (s s' : Solver) : Prop where
  pres : ∀ t, Solved t → Agree t s → Agree t s'
  elim : s'.eliminated = s.eliminated
  gsrc : GridSrc s → GridSrc s'
  still : fn = false → s'.deduced = s.deduced ∧ s'.grid = s.grid
  log : ∃ ext : List Candidate, s'.deduced = s.deduced ++ ext ∧
    s'.deductions = s.deductions ++ ext.map Deduction.nakedSingles ∧
    ∀ i e, ext[i]? = some e → (∃ t, Solved t ∧ Agree t s) →
      ∃ n, n ≤ s.deduced.length + i ∧ Pattern.NakedSingle (CandL (s'.deduced.take n) s.eliminated) e

theorem Trace.refl {fn : Bool} (s : Solver) : Trace fn s s :=
  ⟨fun _ _ h => h, rfl, id, fun _ => ⟨rfl, rfl⟩, [], by simp, by simp, fun i e h => by simp at h⟩

theorem Trace.trans {fn : Bool} {a b c : Solver} (h : Trace fn a b) (h' : Trace fn b c) : Trace fn a c := by
  obtain ⟨x, x1, x2, x3⟩ := h.log
  obtain ⟨y, y1, y2, y3⟩ := h'.log
  refine ⟨fun t ht ha => h'.pres t ht (h.pres t ht ha), h'.elim.trans h.elim, h'.gsrc ∘ h.gsrc,
    fun hf => ⟨(h'.still hf).1.trans (h.still hf).1, (h'.still hf).2.trans (h.still hf).2⟩, x ++ y, ?_, ?_, ?_⟩
  · rw [y1, x1, List.append_assoc]
  · rw [y2, x2, List.map_append, List.append_assoc]
  · intro i e hi ⟨t, ht, hta⟩
    by_cases hlt : i < x.length
    · rw [List.getElem?_append_left hlt] at hi
      obtain ⟨n, hn, hs⟩ := x3 i e hi ⟨t, ht, hta⟩
      refine ⟨n, hn, ?_⟩
      rw [y1, List.take_append_of_le_length (by rw [x1, List.length_append]; omega)]
      exact hs
    · rw [List.getElem?_append_right (by omega)] at hi
      obtain ⟨n, hn, hs⟩ := y3 _ e hi ⟨t, ht, h.pres t ht hta⟩
      refine ⟨n, ?_, ?_⟩
      · rw [x1, List.length_append] at hn
        omega
      · rw [← h.elim]
        exact hs

/-- A change of the caches only. -/
theorem Trace.of_eq {fn : Bool} {s s' : Solver} (h1 : s'.deduced = s.deduced) (h2 : s'.deductions = s.deductions)
    (h3 : s'.eliminated = s.eliminated) (h4 : s'.grid = s.grid) : Trace fn s s' := by
  refine ⟨fun t _ ha => ⟨?_, ?_, ?_⟩, h3, fun h => by unfold GridSrc; rw [h1, h4]; exact h,
    fun _ => ⟨h1, h4⟩, [], by simp [h1], by simp [h2], fun i e h => by simp at h⟩
  · rw [h1]; exact ha.ded
  · rw [h3]; exact ha.elim
  · rw [h4]; exact ha.grid

theorem take_cpNext_append {s : Solver} (h : s.cpNext ≤ s.deduced.length) (ext : List Candidate) :
    (s.deduced ++ ext).take s.cpNext = s.deduced.take s.cpNext := List.take_append_of_le_length h

theorem mem_take {α : Type} {l : List α} {n : Nat} {x : α} : x ∈ l.take n ↔ ∃ i, i < n ∧ l[i]? = some x := by
  constructor
  · intro h
    obtain ⟨i, hi⟩ := List.mem_iff_getElem?.mp h
    rw [List.getElem?_take] at hi
    split at hi
    · exact ⟨i, by assumption, hi⟩
    · cases hi
  · rintro ⟨i, hi, h⟩
    refine List.mem_iff_getElem?.mpr ⟨i, ?_⟩
    rw [List.getElem?_take, if_pos hi]
    exact h

theorem get?_append {α : Type} {l : List α} {i : Nat} (ext : List α) (h : i < l.length) : (l ++ ext)[i]? = l[i]? :=
  List.getElem?_append_left h

/-- The solution's digit is possible in every open cell. -/
theorem Gh.satC {s : Solver} {g : Grid} (h : Gh s g) {t : Grid} (ha : Cons t s) {c : Fin 81}
    (h0 : g[c] = 0) {d : Digit} (hd : t[c] = d.get) : s.cp[c].getLsbD d.val = true := by
  refine h.lower c d h0 ?_ ?_
  · intro c' hne hs hg
    exact ha.apart _ (List.mem_of_mem_take (h.src c' d hg)) c hne hs hd
  · intro he
    exact ha.agree.elim _ he hd

theorem Gh.sat {s : Solver} {g : Grid} (h : Gh s g) {t : Grid} (ht : Solved t) (ha : Agree t s) {c : Fin 81}
    (h0 : g[c] = 0) {d : Digit} (hd : t[c] = d.get) : s.cp[c].getLsbD d.val = true :=
  h.satC (Cons.of_solved ht ha) h0 hd

theorem Gh.sub_sol {s : Solver} {g : Grid} (h : Gh s g) {t : Grid} (ha : Agree t s) {c : Fin 81} (h0 : g[c] ≠ 0) :
    t[c] = g[c] := by
  obtain ⟨d, hd⟩ := h.range c h0
  rw [hd]
  exact ha.ded _ (List.mem_of_mem_take (h.src c d hd))

theorem Gh.open_of {s : Solver} {g : Grid} (h : Gh s g) {c : Fin 81} (h0 : s.cp[c] ≠ 0#16) : g[c] = 0 := by
  by_contra hc
  exact h0 (h.empty c hc)

/-- Replacing the possible digits of a cell. -/
def Solver.setCp (s : Solver) (c : Fin 81) (m : DigitSet) : Solver := { s with cp := s.cp.set c m }

theorem setCp_get (s : Solver) (c x : Fin 81) (m : DigitSet) : (s.setCp c m).cp[x] = if c = x then m else s.cp[x] :=
  get_set_fin _ _ _ _

/-- The digits `m` are excluded from `c`. -/
def Excluded (s : Solver) (g : Grid) (c : Fin 81) (m : DigitSet) : Prop :=
  ∀ d : Digit, m.getLsbD d.val = true → (∃ c' : Fin 81, c ≠ c' ∧ SameHouse c c' ∧ g[c'] = d.get) ∨
    (⟨c, d⟩ : Candidate) ∈ s.eliminated

theorem Gh.setCp {s : Solver} {g : Grid} (h : Gh s g) {c : Fin 81} {m : DigitSet} (hm : Excluded s g c m) :
    Gh (s.setCp c (without s.cp[c] m)) g := by
  refine ⟨?_, ?_, h.count, h.house, h.range, h.distinct, h.src, ?_, h.nextLe, h.first⟩
  · intro x
    rw [setCp_get]
    split
    · exact (h.fits c).without
    · exact h.fits x
  · intro x hx
    rw [setCp_get]
    split
    · rename_i e
      have h0 : s.cp[c] = 0#16 := h.empty c (by
        have := congrArg (fun y : Fin 81 => g[y]) e
        rw [show g[c] = g[x] from this]; exact hx)
      rw [h0, eq_zero_iff]
      intro i
      rw [bit_without]; simp
    · exact h.empty x hx
  · intro x d h0 h1 h2
    have hb := h.lower x d h0 h1 h2
    rw [setCp_get]
    split
    · rename_i e
      subst e
      rw [bit_without, hb]
      by_contra hc
      rw [Bool.true_and, Bool.not_eq_true, Bool.not_eq_false'] at hc
      rcases hm d hc with ⟨c', h3, h4, h5⟩ | h3
      · exact h1 c' h3 h4 h5
      · exact h2 h3
    · exact hb

theorem Closed.setCp {s : Solver} (h : Closed s) (c : Fin 81) (m : DigitSet) :
    Closed (s.setCp c (without s.cp[c] m)) := by
  intro e he
  have h0 := h e he
  rw [setCp_get]
  split
  · rename_i e'
    have := congrArg (fun y : Fin 81 => s.cp[y]) e'
    rw [show s.cp[c] = s.cp[e.cell] from this, h0, eq_zero_iff]
    intro i
    rw [bit_without]; simp
  · exact h0

/-- Recording an entry. -/
theorem Gh.pushed {s : Solver} {g : Grid} (h : Gh s g) (e : Candidate) (d : RangeDeduction) : Gh (s.pushed e d) g := by
  refine ⟨h.fits, h.empty, h.count, h.house, h.range, h.distinct, ?_, h.lower, ?_, ?_⟩
  · intro c d' hc
    show _ ∈ (s.deduced ++ [e]).take s.cpNext
    rw [take_cpNext_append h.nextLe]
    exact h.src c d' hc
  · have := h.nextLe
    show s.cpNext ≤ (s.deduced ++ [e]).length
    rw [List.length_append]; omega
  · intro i e' hi he hj
    have hi : i < s.cpNext := hi
    have := h.nextLe
    have he : (s.deduced ++ [e])[i]? = some e' := he
    rw [get?_append _ (by omega)] at he
    refine h.first i e' hi he ?_
    intro j e'' hji he''
    refine hj j e'' hji ?_
    show (s.deduced ++ [e])[j]? = some e''
    rw [get?_append _ (by omega)]
    exact he''

theorem Closed.pushed {s : Solver} (h : Closed s) (hn : s.cpNext ≤ s.deduced.length) (e : Candidate) (d : RangeDeduction) :
    Closed (s.pushed e d) := by
  intro x hx
  have hx : x ∈ (s.deduced ++ [e]).take s.cpNext := hx
  rw [take_cpNext_append hn] at hx
  exact h x hx

/-- The only possible digit of a cell is the solution's, and a naked single. -/
theorem naked_sound {s : Solver} {g : Grid} (h : Gh s g) {c : Fin 81} {d : Digit}
    (hu : ∀ j, s.cp[c].getLsbD j = true ↔ j = d.val) {t : Grid} (ht : Solved t) (ha : Agree t s) : t[c] = d.get := by
  have h0 : g[c] = 0 := h.open_of (ne_zero_iff.mpr ⟨d.val, (hu _).mpr rfl⟩)
  have hb := h.sat ht ha h0 (dig_spec ht c)
  rw [hu] at hb
  rw [dig_spec ht c, Fin.ext hb]

theorem naked_single {s : Solver} {g : Grid} (h : Gh s g) (hcl : Closed s) {c : Fin 81} {d : Digit}
    (hu : ∀ j, s.cp[c].getLsbD j = true ↔ j = d.val) (hex : ∃ t, Solved t ∧ Agree t s) :
    Pattern.NakedSingle (CandL (s.deduced.take s.cpNext) s.eliminated) ⟨c, d⟩ := by
  obtain ⟨t, ht, ha⟩ := hex
  have hne : s.cp[c] ≠ 0#16 := ne_zero_iff.mpr ⟨d.val, (hu _).mpr rfl⟩
  have h0 : g[c] = 0 := h.open_of hne
  have htc := naked_sound h hu ht ha
  intro d'
  constructor
  · rintro ⟨h1, h2⟩
    have hb := h.lower c d' h0 ?_ (fun he => h1 _ he ⟨rfl, rfl⟩)
    · rw [hu] at hb
      exact Fin.ext hb
    · intro c' hne hs hg
      exact (h2 _ (h.src c' d' hg)).2 ⟨rfl, SameHouse.symm' hs⟩
  · rintro rfl
    refine ⟨?_, ?_⟩
    · rintro ⟨c', d'⟩ he ⟨h1, h2⟩
      dsimp only at h1 h2
      subst h1 h2
      exact ha.elim _ he htc
    · rintro ⟨c', d'⟩ he
      have hcc : c' ≠ c := by
        rintro rfl
        exact hne (hcl _ he)
      refine ⟨hcc, ?_⟩
      rintro ⟨h1, h2⟩
      dsimp only at h1 h2
      subst h1
      have := ha.ded _ (List.mem_of_mem_take he)
      exact ht.2 c' c hcc h2 (by rw [this, htc])

theorem pushed_trace {s : Solver} {g : Grid} (h : Gh s g) (hcl : Closed s) {c : Fin 81} {d : Digit}
    (hu : ∀ j, s.cp[c].getLsbD j = true ↔ j = d.val) :
    Trace true s (s.pushed ⟨c, d⟩ (.nakedSingles ⟨c, d⟩)) := by
  refine ⟨?_, rfl, fun h => h.pushed _ _, (fun h => (Bool.noConfusion h)), [⟨c, d⟩], rfl, rfl, ?_⟩
  · intro t ht ha
    have htc := naked_sound h hu ht ha
    refine ⟨?_, ha.elim, ?_⟩
    · intro e he
      rcases List.mem_append.mp he with he | he
      · exact ha.ded e he
      · rw [List.mem_singleton] at he
        subst he
        exact htc
    · intro x hx
      have hx : (s.grid.set c.val d.get c.isLt)[x] ≠ 0 := hx
      show t[x] = (s.grid.set c.val d.get c.isLt)[x]
      rw [get_set_fin] at hx ⊢
      split
      · rename_i e
        subst e
        exact htc
      · rename_i e
        rw [if_neg e] at hx
        exact ha.grid x hx
  · intro i e hi hex
    have hi0 : i = 0 := by
      by_contra hne
      rw [List.getElem?_eq_none (by simp; omega)] at hi
      cases hi
    subst hi0
    cases hi
    refine ⟨s.cpNext, by have := h.nextLe; omega, ?_⟩
    show Pattern.NakedSingle (CandL ((s.deduced ++ [_]).take s.cpNext) s.eliminated) _
    rw [take_cpNext_append h.nextLe]
    exact naked_single h hcl hu hex

/-- The result of a step that only removes possible digits. -/
structure Removal (fn : Bool) (s : Solver) (g : Grid) (s' : Solver) : Prop where
  gh : Gh s' g
  closed : Closed s'
  trace : Trace fn s s'
  sub : Sub s'.cp s.cp
  next : s'.cpNext = s.cpNext
  hs : s'.hs = s.hs

theorem Removal.refl {fn : Bool} {s : Solver} {g : Grid} (h : Gh s g) (hc : Closed s) : Removal fn s g s :=
  ⟨h, hc, Trace.refl s, Sub.refl _, rfl, rfl⟩

theorem Removal.trans {fn : Bool} {a b c : Solver} {g : Grid} (h : Removal fn a g b) (h' : Removal fn b g c) : Removal fn a g c :=
  ⟨h'.gh, h'.closed, h.trace.trans h'.trace, h'.sub.trans h.sub, h'.next.trans h.next, h'.hs.trans h.hs⟩

theorem Excluded.of_eq {s s' : Solver} {g : Grid} {c : Fin 81} {m : DigitSet} (h : Excluded s g c m)
    (he : s'.eliminated = s.eliminated) : Excluded s' g c m := by
  intro d hd
  rw [he]
  exact h d hd

/-- No grid (or, if naked singles are entered on the way, no valid completed grid) agrees with the state. -/
def NoSol (fn : Bool) (s : Solver) : Prop := ∀ t, (fn = true → Solved t) → ¬ Cons t s

theorem Trace.cons {fn : Bool} {s s' : Solver} (h : Trace fn s s') {t : Grid} (ht : fn = true → Solved t) (hc : Cons t s) :
    Cons t s' := by
  cases fn
  · obtain ⟨h1, h2⟩ := h.still rfl
    refine ⟨hc.range, ⟨?_, ?_, ?_⟩, ?_⟩
    · rw [h1]; exact hc.agree.ded
    · rw [h.elim]; exact hc.agree.elim
    · rw [h2]; exact hc.agree.grid
    · rw [h1]; exact hc.apart
  · exact Cons.of_solved (ht rfl) (h.pres t (ht rfl) hc.agree)

theorem NoSol.back {fn : Bool} {s s' : Solver} (h : NoSol fn s') (ht : Trace fn s s') : NoSol fn s :=
  fun t h1 h2 => h t h1 (ht.cons h1 h2)

/-- `remove_impossibilities` -/
theorem removeImp_g {s : Solver} {g : Grid} (h : Gh s g) (hcl : Closed s) {c : Fin 81} {m : DigitSet}
    (hm : Excluded s g c m) (fn : Bool) :
    Res.Part (s.removeImpossibilities c m fn) (fun r => Removal fn s g r.1 ∧ r.1.cp[c] = without s.cp[c] m ∧
      (r.2 = true → r.1.cp[c] ≠ 0#16) ∧ (r.2 = false → g[c] = 0 → NoSol fn s)) := by
  have hg := h.setCp hm
  have hc := hcl.setCp c m
  have hsub : Sub (s.setCp c (without s.cp[c] m)).cp s.cp := sub_set_without s.cp c m
  have htr : Trace fn s (s.setCp c (without s.cp[c] m)) := Trace.of_eq rfl rfl rfl rfl
  have hget : (s.setCp c (without s.cp[c] m)).cp[c] = without s.cp[c] m := by rw [setCp_get, if_pos rfl]
  have hrem : Removal fn s g (s.setCp c (without s.cp[c] m)) := ⟨hg, hc, htr, hsub, rfl, rfl⟩
  have hempty : without s.cp[c] m = 0#16 → g[c] = 0 → NoSol fn s := by
    intro h0 hc0 t ht ha
    obtain ⟨d, hd⟩ := ha.range c
    have := hg.satC (htr.cons ht ha) hc0 hd
    rw [hget, h0] at this
    simp at this
  unfold Solver.removeImpossibilities
  by_cases hfn : fn = true
  · subst hfn
    simp only [if_true]
    rcases uniqueItem_spec (n := 9) (by omega) (by omega) (by omega) ((h.fits c).without (b := m))
      with ⟨hz, e⟩ | ⟨d, hu, e⟩ | ⟨h2, e⟩
    · simp only [e, Res.ok_bind]
      exact Res.Part.ok ⟨hrem, hget, (fun h => by cases h), fun _ => hempty hz⟩
    · simp only [e, Res.ok_bind]
      have hne : (s.setCp c (without s.cp[c] m)).cp[c] ≠ 0#16 := by
        rw [hget]
        exact ne_zero_iff.mpr ⟨d.val, (hu _).mpr rfl⟩
      rcases push_cases (s.setCp c (without s.cp[c] m)) ⟨c, d⟩ (.nakedSingles ⟨c, d⟩) (Or.inl rfl)
        with ⟨_, e⟩ | ⟨h0, e⟩ | ⟨hx1, hx2, e⟩
      · refine fun r hr => ?_
        rw [show Solver.pushNewCandidate { s with cp := s.cp.set c (without s.cp[c] m) } _ _ = _ from e] at hr
        cases hr
        exact ⟨hrem, hget, fun _ => hne, fun h => by cases h⟩
      · refine fun r hr => ?_
        rw [show Solver.pushNewCandidate { s with cp := s.cp.set c (without s.cp[c] m) } _ _ = _ from e] at hr
        cases hr
        refine ⟨⟨hg.pushed _ _, hc.pushed hg.nextLe _ _, htr.trans (pushed_trace hg hc ?_), hsub, rfl, rfl⟩, hget,
          fun _ => hne, fun h => by cases h⟩
        rw [hget]
        exact hu
      · refine fun r hr => ?_
        rw [show Solver.pushNewCandidate { s with cp := s.cp.set c (without s.cp[c] m) } _ _ = _ from e] at hr
        cases hr
        refine ⟨hrem, hget, (fun h => by cases h), fun _ _ t ht ha => ?_⟩
        have h1 := naked_sound hg (by rw [hget]; exact hu) (ht rfl) (htr.pres t (ht rfl) ha.agree)
        have h2 := ha.agree.grid c hx1
        exact hx2 (h2.symm.trans h1)
    · simp only [e, Res.ok_bind]
      refine Res.Part.ok ⟨hrem, hget, fun _ => ?_, fun h => by cases h⟩
      show (s.setCp c (without s.cp[c] m)).cp[c] ≠ 0#16
      rw [hget]
      intro h0
      rw [h0] at h2
      have : elems (0#16) = ∅ := elems_NONE (w := 16)
      rw [this] at h2
      simp at h2
  · rw [if_neg hfn]
    refine Res.Part.ok ⟨hrem, hget, fun h => ?_, fun h => hempty ?_⟩
    · show (s.setCp c (without s.cp[c] m)).cp[c] ≠ 0#16
      rw [hget]
      simp only [Bool.not_eq_true'] at h
      intro h0
      rw [(isEmpty_iff (by omega)).mpr h0] at h
      cases h
    · simp only [Bool.not_eq_false'] at h
      exact (isEmpty_iff (by omega)).mp h

/-- A loop over a list whose steps keep `I` (also when they report an error); an error means `E`. -/
theorem tryEach_part {α : Type} {f : Solver → α → Res (Solver × Bool)} {early : Bool} (I : List α → Solver → Prop)
    (E : Prop) : ∀ (l : List α) (s : Solver), I l s →
      (∀ x l s, I (x :: l) s → Res.Part (f s x) (fun r => I l r.1 ∧ (early = true → r.2 = false → E))) →
      Res.Part (tryEach f early l s) (fun r => (∃ rest, I rest r.1) ∧ (r.2 = true → I [] r.1) ∧
        (r.2 = false → E)) := by
  intro l
  induction l with
  | nil => intro s h _; exact Res.Part.ok ⟨⟨[], h⟩, fun _ => h, fun h => by cases h⟩
  | cons x xs ih =>
    intro s h hstep
    unfold tryEach
    refine Res.Part.bind (hstep x xs s h) ?_
    rintro ⟨s1, ok⟩ ⟨h1, h2⟩
    by_cases hc : (early && !ok) = true
    · simp only [hc, if_true]
      rw [Bool.and_eq_true, Bool.not_eq_true'] at hc
      exact Res.Part.ok ⟨⟨xs, h1⟩, (fun h => by cases h), fun _ => h2 hc.1 hc.2⟩
    · simp only [hc]
      exact ih s1 h1 hstep

/-- The loop over the neighbours of a cell that was just filled. -/
theorem removeFromNeighbors_g {s : Solver} {g : Grid} (h : Gh s g) (hcl : Closed s) {e : Candidate}
    (he : g[e.cell] = e.digit.get) (fn : Bool) :
    Res.Part (s.removeFromNeighbors e.digitSet fn (Pos.neighbors e.cell)) (fun r => Removal fn s g r.1 ∧
      (r.2 = true → ∀ c ∈ Pos.neighbors e.cell, r.1.cp[c].getLsbD e.digit.val = false) ∧
      (r.2 = false → NoSol fn s)) := by
  refine Res.Part.mono (tryEach_part (fun l s' => (∀ c ∈ l, c ∈ Pos.neighbors e.cell) ∧ Removal fn s g s' ∧
    ∀ c ∈ Pos.neighbors e.cell, c ∈ l ∨ s'.cp[c].getLsbD e.digit.val = false) (NoSol fn s) _ s
    ⟨fun _ h => h, Removal.refl h hcl, fun c hc => Or.inl hc⟩ ?_) ?_
  · rintro c l s1 ⟨h1, h2, h3⟩
    have hl : ∀ c ∈ l, c ∈ Pos.neighbors e.cell := fun c hc => h1 c (List.mem_cons_of_mem _ hc)
    have hcn := (neighbors_iff e.cell c).mp (h1 c List.mem_cons_self)
    split
    · rename_i hov
      refine Res.Part.mono (removeImp_g h2.gh h2.closed (c := c) (m := e.digitSet) ?_ fn) ?_
      · intro d hd
        rw [digitSet_get] at hd
        left
        exact ⟨e.cell, hcn.1, SameHouse.symm' hcn.2, by rw [he, Fin.ext hd]⟩
      · rintro ⟨s2, ok⟩ ⟨g1, g2, _, g4⟩
        refine ⟨⟨hl, h2.trans g1, ?_⟩, fun _ hr => (g4 hr (h2.gh.open_of (fun h0 => ?_))).back h2.trace⟩
        rotate_left
        · obtain ⟨i, _, hi⟩ := overlaps_iff.mp hov
          rw [h0] at hi
          simp at hi
        intro c' hc'
        rcases h3 c' hc' with h4 | h4
        · rcases List.mem_cons.mp h4 with rfl | h4
          · right
            show s2.cp[c'].getLsbD _ = false
            have g2 : s2.cp[c'] = _ := g2
            rw [g2, bit_without, bit_digitSet]
            simp
          · exact Or.inl h4
        · right
          show s2.cp[c'].getLsbD _ = false
          by_contra hc
          rw [Bool.not_eq_false] at hc
          have := g1.sub _ _ hc
          rw [h4] at this
          cases this
    · rename_i hov
      refine Res.Part.ok ⟨⟨hl, h2, ?_⟩, fun _ h => by cases h⟩
      intro c' hc'
      rcases h3 c' hc' with h4 | h4
      · rcases List.mem_cons.mp h4 with rfl | h4
        · right
          by_contra hc
          rw [Bool.not_eq_false] at hc
          exact hov (overlaps_iff.mpr ⟨_, bit_digitSet e, hc⟩)
        · exact Or.inl h4
      · exact Or.inr h4
  · rintro ⟨s1, ok⟩ ⟨⟨_, _, h1, _⟩, h2, h3⟩
    refine ⟨h1, fun hr c hc => ?_, h3⟩
    rcases (h2 hr).2.2 c hc with h | h
    · cases h
    · exact h

/-! ## Entering a digit -/

theorem advanced_take {s : Solver} {e : Candidate} (he : s.deduced[s.cpNext]? = some e) :
    s.deduced.take (s.cpNext + 1) = s.deduced.take s.cpNext ++ [e] := by
  rw [List.take_add_one, he]
  rfl

/-- Passing over an entry. -/
theorem Gh.advanced {s : Solver} {g : Grid} (h : Gh s g) {e : Candidate} (he : s.deduced[s.cpNext]? = some e)
    (hf : (∀ j e', j < s.cpNext → s.deduced[j]? = some e' → e'.cell ≠ e.cell) →
      g[e.cell] = 0 ∨ g[e.cell] = e.digit.get) : Gh s.advanced g := by
  refine ⟨h.fits, h.empty, h.count, h.house, h.range, h.distinct, ?_, h.lower, cpNext_lt he, ?_⟩
  · intro c d hc
    show _ ∈ s.deduced.take (s.cpNext + 1)
    rw [advanced_take he]
    exact List.mem_append_left _ (h.src c d hc)
  · intro i e' hi he' hj
    have hi : i < s.cpNext + 1 := hi
    by_cases hlt : i < s.cpNext
    · exact h.first i e' hlt he' hj
    · have : i = s.cpNext := by omega
      subst this
      have he' : s.deduced[s.cpNext]? = some e' := he'
      rw [he] at he'
      cases he'
      exact hf hj

theorem advance_part {s : Solver} {P : Solver → Prop} (h : P s.advanced) : Res.Part s.advance P := by
  unfold Solver.advance
  intro r hr
  by_cases h1 : s.cpNext < 65535
  · rw [decide_eq_true h1, Res.assert_true, Res.ok_bind] at hr
    by_cases h2 : s.hsNext < 65535
    · rw [decide_eq_true h2, Res.assert_true, Res.ok_bind] at hr
      cases hr
      exact h
    · rw [decide_eq_false h2] at hr
      cases hr
  · rw [decide_eq_false h1] at hr
    cases hr

theorem insert_part {s : Solver} {e : Candidate} {P : Solver → Prop} (h : P (s.entered e)) :
    Res.Part (s.insertCandidateCpZs e) P := by
  unfold Solver.insertCandidateCpZs
  intro r hr
  by_cases h1 : s.nSolved < 255
  · rw [decide_eq_true h1, Res.assert_true, Res.ok_bind] at hr
    cases hr
    exact h
  · rw [decide_eq_false h1] at hr
    cases hr

/-- Entering a digit. -/
theorem Gh.entered {s : Solver} {g : Grid} (h : Gh s g) (hcl : Closed s) {e : Candidate}
    (he : s.deduced[s.cpNext]? = some e) (h0 : s.cp[e.cell] ≠ 0#16)
    (hd : ∀ c' : Fin 81, e.cell ≠ c' → SameHouse e.cell c' → g[c'] ≠ e.digit.get) :
    Gh (s.advanced.entered e) (g.set e.cell e.digit.get) ∧ Closed (s.advanced.entered e) := by
  have hg0 := h.open_of h0
  have hget : ∀ c : Fin 81, (g.set e.cell.val e.digit.get e.cell.isLt)[c] = if e.cell = c then e.digit.get else g[c] :=
    fun c => get_set_fin _ _ _ _
  have hcp : ∀ c : Fin 81, (s.advanced.entered e).cp[c] = if e.cell = c then NONE 16 else s.cp[c] :=
    fun c => get_set_fin _ _ _ _
  refine ⟨⟨?_, ?_, ?_, ?_, ?_, ?_, ?_, ?_, ?_, ?_⟩, ?_⟩
  · intro c
    rw [hcp]
    split
    · exact fits_none
    · exact h.fits c
  · intro c hc
    rw [hget] at hc
    rw [hcp]
    split
    · rfl
    · rename_i hne
      rw [if_neg hne] at hc
      exact h.empty c hc
  · show s.nSolved + 1 = _
    rw [h.count]
    exact (clueCount_set hg0 (Digit.get_ne_zero _)).symm
  · intro n d
    show (orHouse (orHouse (orHouse s.hs e.row e.digitSet) e.col e.digitSet) e.block e.digitSet)[n].getLsbD d.val = true ↔ _
    have orget : ∀ (v : Vector DigitSet 27) (h n : Fin 27) (m : DigitSet) (k : Nat),
      (Strat.orHouse v h m)[n].getLsbD k = true ↔ v[n].getLsbD k = true ∨ (n = h ∧ m.getLsbD k = true) := Sudoku.set_or_get
    rw [orget, orget, orget, h.house, digitSet_get]
    have hin : Sudoku.InHouse n e.cell ↔ n = e.row ∨ n = e.col ∨ n = e.block := Iff.rfl
    constructor
    · intro hx
      have : (∃ c, Sudoku.InHouse n c ∧ g[c] = d.get) ∨ (Sudoku.InHouse n e.cell ∧ d = e.digit) := by
        rw [hin]
        rcases hx with ((h1 | h1) | h1) | h1
        · exact Or.inl h1
        · exact Or.inr ⟨Or.inl h1.1, Fin.ext h1.2⟩
        · exact Or.inr ⟨Or.inr (Or.inl h1.1), Fin.ext h1.2⟩
        · exact Or.inr ⟨Or.inr (Or.inr h1.1), Fin.ext h1.2⟩
      rcases this with ⟨c, h1, h2⟩ | ⟨h1, rfl⟩
      · refine ⟨c, h1, ?_⟩
        rw [hget, if_neg]
        · exact h2
        · rintro rfl
          rw [hg0] at h2
          exact Digit.get_ne_zero _ h2.symm
      · exact ⟨e.cell, h1, by rw [hget, if_pos rfl]⟩
    · rintro ⟨c, h1, h2⟩
      rw [hget] at h2
      by_cases ec : e.cell = c
      · rw [if_pos ec] at h2
        have := Digit.get_inj h2
        subst ec
        rw [hin] at h1
        rcases h1 with h1 | h1 | h1
        · exact Or.inl (Or.inl (Or.inr ⟨h1, by rw [this]⟩))
        · exact Or.inl (Or.inr ⟨h1, by rw [this]⟩)
        · exact Or.inr ⟨h1, by rw [this]⟩
      · rw [if_neg ec] at h2
        exact Or.inl (Or.inl (Or.inl ⟨c, h1, h2⟩))
  · intro c hc
    rw [hget] at hc ⊢
    split
    · exact ⟨_, rfl⟩
    · rename_i hne
      rw [if_neg hne] at hc
      exact h.range c hc
  · intro c c' hne hs hc
    rw [hget] at hc
    rw [hget, hget]
    by_cases h1 : e.cell = c
    · subst h1
      rw [if_pos rfl, if_neg hne]
      exact (hd c' hne hs).symm
    · rw [if_neg h1] at hc ⊢
      by_cases h2 : e.cell = c'
      · subst h2
        rw [if_pos rfl]
        exact hd c h1 (SameHouse.symm' hs)
      · rw [if_neg h2]
        exact h.distinct c c' hne hs hc
  · intro c d hc
    show _ ∈ s.deduced.take (s.cpNext + 1)
    rw [advanced_take he]
    rw [hget] at hc
    split at hc
    · rename_i ec
      subst ec
      have := Digit.get_inj hc
      subst this
      exact List.mem_append_right _ (by simp)
    · exact List.mem_append_left _ (h.src c d hc)
  · intro c d hc h1 h2
    rw [hget] at hc
    rw [hcp]
    split
    · rename_i ec
      rw [if_pos ec] at hc
      exact absurd hc (Digit.get_ne_zero _)
    · rename_i ec
      rw [if_neg ec] at hc
      refine h.lower c d hc ?_ h2
      intro c' hne hs hg
      refine h1 c' hne hs ?_
      rw [hget, if_neg]
      · exact hg
      · rintro rfl
        rw [hg0] at hg
        exact Digit.get_ne_zero _ hg.symm
  · exact cpNext_lt he
  · intro i e' hi he' hj
    rw [hget]
    split
    · rename_i ec
      right
      have hi : i < s.cpNext + 1 := hi
      by_cases hlt : i < s.cpNext
      · exfalso
        have := hcl e' (mem_take.mpr ⟨i, hlt, he'⟩)
        have hcong := congrArg (fun y : Fin 81 => s.cp[y]) ec
        exact h0 ((show s.cp[e.cell] = s.cp[e'.cell] from hcong).trans this)
      · have : i = s.cpNext := by omega
        subst this
        have he' : s.deduced[s.cpNext]? = some e' := he'
        rw [he] at he'
        cases he'
        rfl
    · rename_i ec
      have hi : i < s.cpNext + 1 := hi
      by_cases hlt : i < s.cpNext
      · exact h.first i e' hlt he' hj
      · have : i = s.cpNext := by omega
        subst this
        have he' : s.deduced[s.cpNext]? = some e' := he'
        rw [he] at he'
        cases he'
        exact absurd rfl ec
  · intro x hx
    have hx : x ∈ s.deduced.take (s.cpNext + 1) := hx
    rw [advanced_take he] at hx
    rw [hcp]
    split
    · rfl
    · rename_i ec
      rcases List.mem_append.mp hx with hx | hx
      · exact hcl x hx
      · rw [List.mem_singleton] at hx
        subst hx
        exact absurd rfl ec

theorem Gh.skipped {s : Solver} {g : Grid} (h : Gh s g) (hcl : Closed s) {e : Candidate}
    (he : s.deduced[s.cpNext]? = some e) (h0 : s.cp[e.cell] = 0#16) : Gh s.advanced g ∧ Closed s.advanced := by
  refine ⟨h.advanced he ?_, ?_⟩
  · intro hj
    by_contra hc
    rw [not_or] at hc
    obtain ⟨d, hd⟩ := h.range _ hc.1
    obtain ⟨j, hj1, hj2⟩ := mem_take.mp (h.src _ d hd)
    exact hj j _ hj1 hj2 rfl
  · intro x hx
    have hx : x ∈ s.deduced.take (s.cpNext + 1) := hx
    rw [advanced_take he] at hx
    rcases List.mem_append.mp hx with hx | hx
    · exact hcl x hx
    · rw [List.mem_singleton] at hx
      subst hx
      exact h0

/-- The result of processing entries. -/
structure Progress (fn : Bool) (s s' : Solver) (g' : Grid) : Prop where
  gh : Gh s' g'
  trace : Trace fn s s'

theorem insertSingly_g (fn : Bool) : ∀ (fuel : Nat) (s : Solver) (g : Grid), Gh s g → Closed s → Fresh s g →
    Res.Part (Solver.insertSingly fn fuel s) (fun r => ∃ g', Progress fn s r.1 g' ∧
      (r.2 = true → Closed r.1 ∧ Fresh r.1 g') ∧ (r.2 = false → NoSol fn s)) := by
  intro fuel
  induction fuel with
  | zero => intro s g _ _ _ r hr; cases hr
  | succ fuel ih =>
    intro s g h hcl hfr
    unfold Solver.insertSingly
    split
    · exact Res.Part.ok ⟨g, ⟨h, Trace.refl s⟩, fun _ => ⟨hcl, hfr⟩, fun h => by cases h⟩
    · rename_i e he
      have hadv : Trace fn s s.advanced := Trace.of_eq rfl rfl rfl rfl
      refine Res.Part.bind (advance_part (P := fun x => x = s.advanced) rfl) ?_
      rintro _ rfl
      split
      · rename_i h0
        have h0 : s.cp[e.cell] = 0#16 := (isEmpty_iff (by omega)).mp h0
        obtain ⟨h1, h2⟩ := h.skipped hcl he h0
        refine Res.Part.mono (ih s.advanced g h1 h2 hfr) ?_
        rintro r ⟨g', p, q⟩
        exact ⟨g', ⟨p.gh, hadv.trans p.trace⟩, q.1, fun hr => (q.2 hr).back hadv⟩
      · rename_i h0
        have h0 : s.cp[e.cell] ≠ 0#16 := fun hc => h0 ((isEmpty_iff (by omega)).mpr hc)
        split
        · rename_i h1
          refine Res.Part.ok ⟨g, ⟨h.advanced he ?_, hadv⟩, (fun hc => by cases hc), fun _ t ht ha => ?_⟩
          · intro _
            exact Or.inl (h.open_of h0)
          · have hb := h.satC ha (h.open_of h0) (ha.agree.ded e (List.mem_of_getElem? he))
            have h2 := (eq_zero_iff.mp ((isEmpty_iff (by omega)).mp h1)) e.digit.val
            rw [bit_inter, show s.advanced.cp = s.cp from rfl, hb, bit_digitSet] at h2
            cases h2
        · rename_i h1
          have h1 : s.cp[e.cell].getLsbD e.digit.val = true := by
            by_contra hc
            apply h1
            rw [isEmpty_iff (by omega), eq_zero_iff]
            intro i
            rw [bit_inter]
            by_contra hb
            rw [Bool.not_eq_false, Bool.and_eq_true, digitSet_get] at hb
            obtain ⟨hb1, rfl⟩ := hb
            exact hc hb1
          refine Res.Part.bind (insert_part (P := fun x => x = s.advanced.entered e) rfl) ?_
          rintro _ rfl
          obtain ⟨g1, c1⟩ := h.entered hcl he h0 (by
            intro c' hne hs hg
            have := hfr c' e.cell e.digit hne.symm (SameHouse.symm' hs) hg
            rw [h1] at this
            cases this)
          have htr : Trace fn s (s.advanced.entered e) := Trace.of_eq rfl rfl rfl rfl
          refine Res.Part.bind (removeFromNeighbors_g g1 c1 (e := e) (by rw [get_set_fin, if_pos rfl]) fn) ?_
          rintro ⟨s2, ok⟩ ⟨r1, r2, r3⟩
          show Res.Part (if (!ok) = true then _ else _) _
          have tr2 : Trace fn s s2 := htr.trans r1.trace
          cases ok
          · exact Res.Part.ok ⟨_, ⟨r1.gh, tr2⟩, (fun hc => by cases hc), fun _ => (r3 rfl).back htr⟩
          · have hfr2 : Fresh s2 (g.set e.cell e.digit.get) := by
              intro c c' d hne hs hg
              rw [get_set_fin] at hg
              split at hg
              · rename_i ec
                subst ec
                have := Digit.get_inj hg
                subst this
                exact r2 rfl c' ((neighbors_iff _ _).mpr ⟨hne.symm, hs⟩)
              · by_contra hc
                rw [Bool.not_eq_false] at hc
                have hb := sub_set_none s.cp e.cell _ _ (r1.sub _ _ hc)
                have := hfr c c' d hne hs hg
                rw [hb] at this
                cases this
            show Res.Part (if s2.deduced.length < s2.cpNext then _ else _) _
            split
            · intro r hr; cases hr
            · split
              · exact Res.Part.ok ⟨_, ⟨r1.gh, tr2⟩, (fun _ => ⟨r1.closed, hfr2⟩), fun hc => by cases hc⟩
              · refine Res.Part.mono (ih s2 _ r1.gh r1.closed hfr2) ?_
                rintro r ⟨g', p, q⟩
                exact ⟨g', ⟨p.gh, tr2.trans p.trace⟩, q.1, fun hr => (q.2 hr).back tr2⟩

theorem batchInsert_g {fn : Bool} : ∀ (fuel : Nat) (s : Solver) (g : Grid), Gh s g → Closed s →
    Res.Part (Solver.batchInsert fuel s) (fun r => ∃ g', Progress fn s r.1 g' ∧ (r.2 = true → Closed r.1) ∧
      (r.2 = false → NoSol fn s)) := by
  intro fuel
  induction fuel with
  | zero => intro s g _ _ r hr; cases hr
  | succ fuel ih =>
    intro s g h hcl
    unfold Solver.batchInsert
    split
    · exact Res.Part.ok ⟨g, ⟨h, Trace.refl s⟩, (fun _ => hcl), fun h => by cases h⟩
    · rename_i e he
      have hadv : Trace fn s s.advanced := Trace.of_eq rfl rfl rfl rfl
      refine Res.Part.bind (advance_part (P := fun x => x = s.advanced) rfl) ?_
      rintro _ rfl
      split
      · rename_i h0
        have h0 : s.cp[e.cell] = 0#16 := (isEmpty_iff (by omega)).mp h0
        obtain ⟨h1, h2⟩ := h.skipped hcl he h0
        refine Res.Part.mono (ih s.advanced g h1 h2) ?_
        rintro r ⟨g', p, q⟩
        exact ⟨g', ⟨p.gh, hadv.trans p.trace⟩, q.1, fun hr => (q.2 hr).back hadv⟩
      · rename_i h0
        have h0 : s.cp[e.cell] ≠ 0#16 := fun hc => h0 ((isEmpty_iff (by omega)).mpr hc)
        split
        · rename_i hov
          refine Res.Part.ok ⟨g, ⟨h.advanced he ?_, hadv⟩, (fun hc => by cases hc), fun _ t ht ha => ?_⟩
          · intro _
            exact Or.inl (h.open_of h0)
          · have hte := ha.agree.ded e (List.mem_of_getElem? he)
            have hbad : ∀ n : Fin 27, Sudoku.InHouse n e.cell → overlaps s.hs[n] e.digitSet = true → False := by
              intro n hn ho
              obtain ⟨i, hi1, hi2⟩ := overlaps_iff.mp ho
              rw [digitSet_get] at hi2
              subst hi2
              obtain ⟨c', a1, a2⟩ := (h.house n e.digit).mp hi1
              have hg0 := h.open_of h0
              have hne : e.cell ≠ c' := by
                rintro rfl
                rw [hg0] at a2
                exact Digit.get_ne_zero _ a2.symm
              exact ha.apart _ (List.mem_of_mem_take (h.src c' e.digit a2)) e.cell hne
                (Sudoku.sameHouse_of_inHouse _ _ _ hn a1) hte
            rw [Bool.or_eq_true, Bool.or_eq_true] at hov
            rcases hov with (hov | hov) | hov
            · exact hbad _ (Or.inl rfl) hov
            · exact hbad _ (Or.inr (Or.inl rfl)) hov
            · exact hbad _ (Or.inr (Or.inr rfl)) hov
        · rename_i hov
          refine Res.Part.bind (insert_part (P := fun x => x = s.advanced.entered e) rfl) ?_
          rintro _ rfl
          have hov' : ∀ n : Fin 27, Sudoku.InHouse n e.cell → ¬ s.hs[n].getLsbD e.digit.val = true := by
            intro n hn hb
            apply hov
            have : overlaps s.hs[n] e.digitSet = true := overlaps_iff.mpr ⟨_, hb, bit_digitSet e⟩
            rw [Bool.or_eq_true, Bool.or_eq_true]
            rcases hn with rfl | rfl | rfl
            · exact Or.inl (Or.inl this)
            · exact Or.inl (Or.inr this)
            · exact Or.inr this
          obtain ⟨g1, c1⟩ := h.entered hcl he h0 (by
            intro c' hne hs hg
            obtain ⟨n, a1, a2⟩ := Sudoku.inHouse_of_sameHouse hs
            exact hov' n a1 ((h.house n e.digit).mpr ⟨c', a2, hg⟩))
          have htr : Trace fn s (s.advanced.entered e) := Trace.of_eq rfl rfl rfl rfl
          refine Res.Part.mono (ih _ _ g1 c1) ?_
          rintro r ⟨g', p, q⟩
          exact ⟨g', ⟨p.gh, htr.trans p.trace⟩, q.1, fun hr => (q.2 hr).back htr⟩

/-- The digits entered in the houses of an empty cell. -/
theorem housesMask_g {s : Solver} {g : Grid} (hi : Gh s g) (c : Fin 81) (h0 : g[c] = 0) (d : Digit) :
    (s.housesMask c).getLsbD d.val = true ↔ ∃ c' : Fin 81, c ≠ c' ∧ SameHouse c c' ∧ g[c'] = d.get := by
  unfold Solver.housesMask
  rw [bit_union, bit_union, Bool.or_eq_true, Bool.or_eq_true, hi.house, hi.house, hi.house]
  have hne : ∀ c', g[c'] = d.get → c ≠ c' := by
    rintro c' h rfl
    rw [h0] at h
    exact Digit.get_ne_zero _ h.symm
  constructor
  · rintro ((⟨c', h1, h2⟩ | ⟨c', h1, h2⟩) | ⟨c', h1, h2⟩)
    · exact ⟨c', hne _ h2, Sudoku.sameHouse_of_inHouse _ _ _ (Or.inl rfl) h1, h2⟩
    · exact ⟨c', hne _ h2, Sudoku.sameHouse_of_inHouse _ _ _ (Or.inr (Or.inl rfl)) h1, h2⟩
    · exact ⟨c', hne _ h2, Sudoku.sameHouse_of_inHouse _ _ _ (Or.inr (Or.inr rfl)) h1, h2⟩
  · rintro ⟨c', _, hs, h2⟩
    obtain ⟨h, a1, a2⟩ := Sudoku.inHouse_of_sameHouse hs
    rcases a1 with rfl | rfl | rfl
    · exact Or.inl (Or.inl ⟨c', a2, h2⟩)
    · exact Or.inl (Or.inr ⟨c', a2, h2⟩)
    · exact Or.inr ⟨c', a2, h2⟩

theorem batchRemove_g {s : Solver} {g : Grid} (h : Gh s g) (hcl : Closed s) (fn : Bool) :
    Res.Part (s.batchRemove fn) (fun r => Removal fn s g r.1 ∧ (r.2 = true → Fresh r.1 g) ∧
      (r.2 = false → NoSol fn s)) := by
  refine Res.Part.mono (tryEach_part (fun l s' => Removal fn s g s' ∧ ∀ c : Fin 81, c ∈ l ∨
    ∀ (c' : Fin 81) (d : Digit), c ≠ c' → SameHouse c c' → g[c'] = d.get → s'.cp[c].getLsbD d.val = false)
    (NoSol fn s) _ s
    ⟨Removal.refl h hcl, fun c => Or.inl (List.mem_finRange c)⟩ ?_) ?_
  · rintro c l s1 ⟨h1, h2⟩
    have keep : ∀ s2 : Solver, Sub s2.cp s1.cp → (∀ (c' : Fin 81) (d : Digit), c ≠ c' → SameHouse c c' →
        g[c'] = d.get → s2.cp[c].getLsbD d.val = false) → ∀ x : Fin 81, x ∈ l ∨
        ∀ (c' : Fin 81) (d : Digit), x ≠ c' → SameHouse x c' → g[c'] = d.get → s2.cp[x].getLsbD d.val = false := by
      intro s2 hsub hc x
      rcases h2 x with h3 | h3
      · rcases List.mem_cons.mp h3 with rfl | h3
        · exact Or.inr hc
        · exact Or.inl h3
      · right
        intro c' d hne hs hg
        by_contra hb
        rw [Bool.not_eq_false] at hb
        have := hsub _ _ hb
        rw [h3 c' d hne hs hg] at this
        cases this
    split
    · rename_i h0
      have h0 : s1.cp[c] = 0#16 := (isEmpty_iff (by omega)).mp h0
      refine Res.Part.ok ⟨⟨h1, keep s1 (Sub.refl _) ?_⟩, fun _ h => by cases h⟩
      intro c' d _ _ _
      rw [h0]; simp
    · rename_i h0
      have h0 : s1.cp[c] ≠ 0#16 := fun hc => h0 ((isEmpty_iff (by omega)).mpr hc)
      have hg0 := h1.gh.open_of h0
      refine Res.Part.mono (removeImp_g h1.gh h1.closed (c := c) (m := s1.housesMask c) ?_ fn) ?_
      · intro d hd
        exact Or.inl ((housesMask_g h1.gh c hg0 d).mp hd)
      · rintro ⟨s2, ok⟩ ⟨g1, g2, _, g4⟩
        refine ⟨⟨h1.trans g1, keep s2 g1.sub ?_⟩, fun _ hr => (g4 hr hg0).back h1.trace⟩
        intro c' d hne hs hg
        have g2 : s2.cp[c] = _ := g2
        rw [g2, bit_without, (housesMask_g h1.gh c hg0 d).mpr ⟨c', hne, hs, hg⟩]
        simp
  · rintro ⟨s1, ok⟩ ⟨⟨_, h1, _⟩, h2, h3⟩
    refine ⟨h1, fun hr => ?_, h3⟩
    intro c c' d hne hs hg
    rcases (h2 hr).2 c' with h3 | h3
    · cases h3
    · exact h3 c d hne.symm (SameHouse.symm' hs) hg

theorem batch_g {s : Solver} {g : Grid} (h : Gh s g) (hcl : Closed s) (fuel : Nat) (fn : Bool) :
    Res.Part (Solver.batch fuel fn s) (fun r => ∃ g', Progress fn s r.1 g' ∧
      (r.2 = true → Closed r.1 ∧ Fresh r.1 g') ∧ (r.2 = false → NoSol fn s)) := by
  unfold Solver.batch andThen
  refine Res.Part.bind (batchInsert_g (fn := fn) fuel s g h hcl) ?_
  rintro ⟨s1, ok⟩ ⟨g', p, q⟩
  cases ok
  · exact Res.Part.ok ⟨g', p, (fun hc => by cases hc), fun _ => q.2 rfl⟩
  · simp only [if_true]
    refine Res.Part.mono (batchRemove_g p.gh (q.1 rfl) fn) ?_
    rintro ⟨s2, ok⟩ ⟨r1, r2, r3⟩
    exact ⟨g', ⟨r1.gh, p.trace.trans r1.trace⟩, fun hr => ⟨r1.closed, r2 hr⟩, fun hr => (r3 hr).back p.trace⟩

theorem insertLoop_g (fuel0 : Nat) (fn : Bool) : ∀ (fuel : Nat) (s : Solver) (g : Grid), Gh s g → Closed s → Fresh s g →
    Res.Part (Solver.insertLoop fuel0 fn fuel s) (fun r => ∃ g', Progress fn s r.1 g' ∧
      (r.2 = true → Closed r.1 ∧ Fresh r.1 g') ∧ (r.2 = false → NoSol fn s)) := by
  intro fuel
  induction fuel with
  | zero => intro s g _ _ _ r hr; cases hr
  | succ fuel ih =>
    intro s g h hcl hfr
    have hnext : ∀ r : Solver × Bool, (∃ g', Progress fn s r.1 g' ∧ (r.2 = true → Closed r.1 ∧ Fresh r.1 g') ∧ (r.2 = false → NoSol fn s)) →
        Res.Part (if r.2 then Solver.insertLoop fuel0 fn fuel r.1 else .ok (r.1, false)) (fun r => ∃ g',
          Progress fn s r.1 g' ∧ (r.2 = true → Closed r.1 ∧ Fresh r.1 g') ∧ (r.2 = false → NoSol fn s)) := by
      rintro ⟨s1, ok⟩ ⟨g', p, q⟩
      cases ok
      · exact Res.Part.ok ⟨g', p, (fun hc => by cases hc), fun _ => q.2 rfl⟩
      · refine Res.Part.mono (ih s1 g' p.gh (q.1 rfl).1 (q.1 rfl).2) ?_
        rintro r ⟨g2, p2, q2⟩
        exact ⟨g2, ⟨p2.gh, p.trace.trans p2.trace⟩, q2.1, fun hr => (q2.2 hr).back p.trace⟩
    unfold Solver.insertLoop
    split
    · intro r hr; cases hr
    · dsimp only
      split
      · exact Res.Part.ok ⟨g, ⟨h, Trace.refl s⟩, (fun _ => ⟨hcl, hfr⟩), fun h => by cases h⟩
      · split
        · exact Res.Part.bind (insertSingly_g fn fuel0 s g h hcl hfr) hnext
        · exact Res.Part.bind (batch_g h hcl fuel0 fn) hnext

/-- `_update_cell_poss_house_solved` -/
theorem update_g (fuel : Nat) (fn early : Bool) {s : Solver} {g : Grid} (h : Gh s g) (hcl : Closed s) (hfr : Fresh s g) :
    Res.Part (Solver.update fuel fn early s) (fun r => ∃ g', Progress fn s r.1 g' ∧
      (r.2 = true → Closed r.1 ∧ Fresh r.1 g') ∧ 
      (r.2 = false → (early = true → ∀ e ∈ s.eliminated.drop s.cpElim, g[e.cell] = 0) → NoSol fn s)) := by
  unfold Solver.update
  dsimp only
  split
  · intro r hr; cases hr
  · rename_i hle
    rw [decide_eq_false (by omega)]
    unfold andThen
    refine Res.Part.bind (tryEach_part (fun l s1 => (∀ e ∈ l, e ∈ s.eliminated.drop s.cpElim) ∧ Removal fn s g s1)
      ((early = true → ∀ e ∈ s.eliminated.drop s.cpElim, g[e.cell] = 0) → NoSol fn s) _ s
      ⟨fun e he => he, Removal.refl h hcl⟩ ?_) ?_
    · rintro e l s1 ⟨h1, h2⟩
      refine Res.Part.mono (removeImp_g h2.gh h2.closed (c := e.cell) (m := e.digitSet) ?_ fn) ?_
      · intro d hd
        rw [digitSet_get] at hd
        right
        rw [h2.trace.elim, Fin.ext hd]
        exact List.mem_of_mem_drop (h1 e List.mem_cons_self)
      · rintro ⟨s2, ok⟩ ⟨g1, _, _, g4⟩
        exact ⟨⟨fun e he => h1 e (List.mem_cons_of_mem _ he), h2.trans g1⟩, fun he hr hp =>
          (g4 hr (hp he e (h1 e List.mem_cons_self))).back h2.trace⟩
    · rintro ⟨s1, ok⟩ ⟨⟨_, _, h1⟩, h2, h3⟩
      cases ok
      · exact Res.Part.ok ⟨g, ⟨h1.gh, h1.trace⟩, (fun hc => by cases hc), fun _ => h3 rfl⟩
      · simp only [if_true]
        have hg : Gh { s1 with cpElim := s1.eliminated.length % 65536 } g :=
          ⟨h1.gh.fits, h1.gh.empty, h1.gh.count, h1.gh.house, h1.gh.range, h1.gh.distinct, h1.gh.src, h1.gh.lower,
            h1.gh.nextLe, h1.gh.first⟩
        have hf1 : Fresh { s1 with cpElim := s1.eliminated.length % 65536 } g := by
          intro c c' d hne hs hg
          by_contra hb
          rw [Bool.not_eq_false] at hb
          have := h1.sub _ _ hb
          rw [hfr c c' d hne hs hg] at this
          cases this
        have htr : Trace fn s { s1 with cpElim := s1.eliminated.length % 65536 } :=
          h1.trace.trans (Trace.of_eq rfl rfl rfl rfl)
        unfold Solver.insertEntries
        intro r hr
        by_cases hn : s1.cpNext = s1.hsNext
        · rw [decide_eq_true hn, Res.assert_true, Res.ok_bind] at hr
          obtain ⟨g', p, q⟩ := insertLoop_g fuel fn fuel _ g hg h1.closed hf1 r hr
          exact ⟨g', ⟨p.gh, htr.trans p.trace⟩, q.1, fun hr _ => (q.2 hr).back htr⟩
        · rw [decide_eq_false hn] at hr
          cases hr

end Strat
end Verif
