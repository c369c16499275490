import Verif.Proofs.StratOnce

/-! # The strategy solver: no candidate is excluded twice -/
namespace Verif.Strat

open Bitset Generator

/-! ## Growing lists -/

/-- The ranges of the deductions are between `a` and `b` and follow each other. -/
structure Ranges (a b : Nat) (ds : List RangeDeduction) : Prop where
  le : a ≤ b
  mem : ∀ d ∈ ds, ∀ rg, d.conf = some rg → a ≤ rg.1 ∧ rg.2 ≤ b
  pairwise : ds.Pairwise fun d d' => ∀ rg rg', d.conf = some rg → d'.conf = some rg' → rg.2 ≤ rg'.1

theorem Ranges.nil {a b : Nat} (h : a ≤ b) : Ranges a b [] := ⟨h, by simp, List.Pairwise.nil⟩

theorem Ranges.none {a b : Nat} (h : a ≤ b) {ds : List RangeDeduction} (hd : ∀ d ∈ ds, d.conf = none) : Ranges a b ds := by
  refine ⟨h, fun d hm rg he => ?_, List.pairwise_of_forall_mem_list fun d hm d' _ rg rg' he => ?_⟩
  · rw [hd d hm] at he; cases he
  · rw [hd d hm] at he; cases he

theorem Ranges.append {a b c : Nat} {ds ds' : List RangeDeduction} (h : Ranges a b ds) (h' : Ranges b c ds') :
    Ranges a c (ds ++ ds') := by
  refine ⟨h.le.trans h'.le, fun d hm rg he => ?_, ?_⟩
  · have := h.le
    have := h'.le
    rcases List.mem_append.mp hm with hm | hm
    · have := h.mem d hm rg he
      omega
    · have := h'.mem d hm rg he
      omega
  · rw [List.pairwise_append]
    refine ⟨h.pairwise, h'.pairwise, fun d hm d' hm' rg rg' he he' => ?_⟩
    exact (h.mem d hm rg he).2.trans (h'.mem d' hm' rg' he').1

/-- The cells of the entries of deductions. -/
def entryCells (ds : List RangeDeduction) : List (Fin 81) := (ds.filterMap Deduction.single).map Candidate.cell

/-- Deductions were added; they enter digits in empty cells, each cell once, and none of the cells `C` (if `H`).  With
`b`, they exclude each candidate once. -/
def Grow (b : Bool) (H : Prop) (C : Fin 81 → Prop) (s s' : Solver) : Prop :=
  ∃ ds, s'.deductions = s.deductions ++ ds ∧ Filled s.grid s'.grid (entryCells ds) ∧ Sub s'.cp s.cp ∧
    (H → ∀ c ∈ entryCells ds, ¬ C c) ∧
    (b = true → Ranges s.eliminated.length s'.eliminated.length ds ∧
      ∃ l, s'.eliminated = s.eliminated ++ l ∧ l.Nodup ∧ ∀ e ∈ l, e ∉ s.eliminated)

variable {b : Bool} {H : Prop} {C : Fin 81 → Prop}

theorem Grow.of_eq {s s' : Solver} (h1 : s'.deductions = s.deductions) (h2 : s'.grid = s.grid)
    (h3 : s'.eliminated = s.eliminated) (h4 : s'.cp = s.cp) : Grow b H C s s' :=
  ⟨[], by simp [h1], by rw [h2]; exact Filled.refl _, by rw [h4]; exact Sub.refl _, fun _ _ hc => (nomatch hc),
    fun _ => ⟨Ranges.nil (by rw [h3]), [], by simp [h3], List.nodup_nil, by simp⟩⟩

theorem Grow.refl (s : Solver) : Grow b H C s s := Grow.of_eq rfl rfl rfl rfl

theorem Grow.mono {H' : Prop} {s s' : Solver} (h : Grow b H C s s') (hh : H' → H) : Grow b H' C s s' := by
  obtain ⟨x, x1, x2, x4, x5, x3⟩ := h
  exact ⟨x, x1, x2, x4, fun h' => x5 (hh h'), x3⟩

theorem Grow.trans {s s1 s2 : Solver} (h : Grow b H C s s1) (h' : Grow b H C s1 s2) : Grow b H C s s2 := by
  obtain ⟨x, x1, x2, x4, x5, x3⟩ := h
  obtain ⟨y, y1, y2, y4, y5, y3⟩ := h'
  refine ⟨x ++ y, by rw [y1, x1, List.append_assoc], ?_, y4.trans x4, fun hh c hc => ?_,
    fun hb => ⟨(x3 hb).1.append (y3 hb).1, ?_⟩⟩
  · unfold entryCells
    rw [List.filterMap_append, List.map_append]
    exact x2.trans y2
  · unfold entryCells at hc
    rw [List.filterMap_append, List.map_append] at hc
    rcases List.mem_append.mp hc with hc | hc
    · exact x5 hh c hc
    · exact y5 hh c hc
  · obtain ⟨-, l, k1, k2, k3⟩ := x3 hb
    obtain ⟨-, l', m1, m2, m3⟩ := y3 hb
    refine ⟨l ++ l', by rw [m1, k1, List.append_assoc], ?_, fun e he hc => ?_⟩
    · rw [List.nodup_append]
      refine ⟨k2, m2, fun a ha c hc hac => ?_⟩
      subst hac
      exact m3 a hc (by rw [k1]; exact List.mem_append_right _ ha)
    · rcases List.mem_append.mp he with he | he
      · exact k3 e he hc
      · exact m3 e he (by rw [k1]; exact List.mem_append_left _ hc)

/-- The excluded candidates are still different. -/
theorem Grow.nodup {s s' : Solver} (h : Grow true H C s s') (hn : s.eliminated.Nodup) : s'.eliminated.Nodup := by
  obtain ⟨_, _, _, _, _, h3⟩ := h
  obtain ⟨-, l, k1, k2, k3⟩ := h3 rfl
  rw [k1, List.nodup_append]
  refine ⟨hn, k2, fun a ha c hc hac => ?_⟩
  subst hac
  exact k3 a hc ha

/-- The cells `C` have no candidates left, or the grid has a digit. -/
def Cov (C : Fin 81 → Prop) (cp : Vector DigitSet 81) (g : Grid) : Prop := ∀ c, C c → cp[c] = 0#16 ∨ g[c] ≠ 0

theorem Cov.keep {cp cp' : Vector DigitSet 81} {g g' : Grid} (h : Cov C cp g) (hs : Sub cp' cp)
    (hg : ∀ c : Fin 81, g[c] ≠ 0 → g'[c] ≠ 0) : Cov C cp' g' := by
  intro c hc
  rcases h c hc with h | h
  · left
    rw [eq_zero_iff]
    intro i
    by_contra hi
    rw [Bool.not_eq_false] at hi
    have := hs c i hi
    rw [h] at this
    simp at this
  · exact Or.inr (hg c h)

theorem Grow.cov {s s' : Solver} (h : Grow b H C s s') (hc : Cov C s.cp s.grid) : Cov C s'.cp s'.grid := by
  obtain ⟨x, _, x2, x4, _⟩ := h
  exact hc.keep x4 x2.mono

/-- The cells `C` are done after the next update of the caches. -/
def CovNext (C : Fin 81 → Prop) (s : Solver) : Prop :=
  Cov C s.cp s.grid ∨ (s.cpNext = 0 ∧ ∀ c, C c → ∃ e ∈ s.deduced, e.cell = c)

/-- Also, that update enters nothing in these cells. -/
def Pre (C : Fin 81 → Prop) (s : Solver) : Prop :=
  Cov C s.cp s.grid ∨ (s.cpNext = 0 ∧ (∀ c, C c → ∃ e ∈ s.deduced, e.cell = c) ∧
    ∀ fuel r, 1000 ≤ fuel → s.update fuel true true = .ok r →
      ∀ ext : List Candidate, r.1.deductions = s.deductions ++ ext.map Deduction.nakedSingles → ∀ e ∈ ext, ¬ C e.cell)

theorem Pre.covNext {s : Solver} (h : Pre C s) : CovNext C s := h.imp id fun h => ⟨h.1, h.2.1⟩

theorem update_cov {fuel : Nat} (hf : 1000 ≤ fuel) (fn : Bool) {s s1 : Solver} (h : W 0 s)
    (he : s.update fuel fn true = .ok (s1, true)) (hp : CovNext C s) : Cov C s1.cp s1.grid := by
  have := update_w (k := 0) (by omega) fn true (fuel := fuel) (by omega) s h
  rw [he] at this
  obtain ⟨_, hfr, hu, _⟩ := this
  have hu := hu rfl
  rcases hp with hp | ⟨h1, h2⟩
  · obtain ⟨_, _, hfi, _⟩ := hfr.fresh
    exact hp.keep hfr.sub hfi.mono
  · intro c hc
    obtain ⟨e, he, rfl⟩ := h2 c hc
    obtain ⟨i, hi⟩ := List.mem_iff_getElem?.mp he
    obtain ⟨ext, hx, _⟩ := hfr.ded
    have hil : i < s.deduced.length := (List.getElem?_eq_some_iff.mp hi).1
    have hi' : s1.deduced[i]? = some e := by
      rw [hx, List.getElem?_append_left hil]
      exact hi
    refine Or.inl (hu.processed i (by omega) ?_ e hi')
    show i < s1.cpNext
    have := hu.all
    have : s1.cpNext = s1.deduced.length := this
    rw [this, hx, List.length_append]
    omega

theorem update_grow {k : Nat} (hk : k ≤ 1) {fuel : Nat} (hf : 1000 ≤ fuel) (fn early : Bool) {s : Solver}
    (h : W k s) {r : Solver × Bool} (he : s.update fuel fn early = .ok r) (hpre : H → fn = true → early = true ∧ Pre C s) :
    Grow b H C s r.1 := by
  have := update_w (k := k) (by omega) fn early (fuel := fuel) (by omega) s h
  rw [he] at this
  obtain ⟨_, hfr, _⟩ := this
  obtain ⟨ext, e1, e2, e3⟩ := hfr.fresh
  have hcells : entryCells (ext.map Deduction.nakedSingles) = ext.map Candidate.cell := by
    unfold entryCells
    have : (ext.map Deduction.nakedSingles).filterMap (Deduction.single (T := Nat × Nat)) = ext := by
      rw [List.filterMap_map]
      exact List.filterMap_some
    rw [this]
  refine ⟨_, e1, by rw [hcells]; exact e2, hfr.sub, fun hh c hc hC => ?_,
    fun _ => ⟨Ranges.none (by rw [hfr.elim]) ?_, [], by simp [hfr.elim], List.nodup_nil, by simp⟩⟩
  · rw [hcells] at hc
    have hgc : s.grid[c] = 0 := e2.before c hc
    obtain ⟨e, hex, rfl⟩ := List.mem_map.mp hc
    obtain ⟨ext', f1, f2, f3⟩ := hfr.ded
    have hee : ext' = ext := by
      rw [e1] at f2
      have := List.append_cancel_left f2
      exact (List.map_injective_iff.mpr (fun a b h => by cases h; rfl) this).symm
    subst hee
    by_cases hfn : fn = true
    · obtain ⟨hea, hp⟩ := hpre hh hfn
      rcases hp with hp | ⟨h1, h2, h3⟩
      · rcases hp e.cell hC with h4 | h4
        · have hi := e3 e hex
          rw [h4] at hi
          simp at hi
        · exact h4 hgc
      · subst hfn hea
        exact h3 fuel r hf he ext' e1 e hex hC
    · rw [f3 (by simpa using hfn)] at hex
      cases hex
  · intro d hd
    obtain ⟨e, _, rfl⟩ := List.mem_map.mp hd
    rfl

theorem pushed_grow {s : Solver} {e : Candidate} {d : RangeDeduction}
    (hd : d = .nakedSingles e ∨ ∃ h, d = .hiddenSingles e h) {r : Solver × Bool} (he : s.pushNewCandidate e d = .ok r)
    (hc : H → C e.cell → s.grid[e.cell] ≠ 0) : Grow b H C s r.1 := by
  rcases push_cases s e d hd with ⟨_, e1⟩ | ⟨h0, e1⟩ | ⟨_, _, e1⟩ <;> rw [e1] at he <;> cases he
  · exact Grow.refl s
  · have hcell : entryCells [d] = [e.cell] := by
      rcases hd with rfl | ⟨h, rfl⟩ <;> rfl
    refine ⟨[d], rfl, by rw [hcell]; exact Filled.set h0, Sub.refl _, fun hh c hc' hC => ?_,
      fun _ => ⟨Ranges.none (Nat.le_refl _) ?_, [], (List.append_nil _).symm, List.nodup_nil, by simp⟩⟩
    · rw [hcell, List.mem_singleton] at hc'
      subst hc'
      exact hc hh hC h0
    · intro d' hd'
      rw [List.mem_singleton] at hd'
      subst hd'
      rcases hd with rfl | ⟨h, rfl⟩ <;> rfl
  · exact Grow.refl s

/-- A search. -/
theorem ext_grow {Q : Deduction (List Candidate) → Prop} {F : Solver → Res (Solver × Bool)} {s : Solver}
    {r : Solver × Bool} (hF : b = true → Once F) (he : F s = .ok r) (hx : Ext (NewElim s) Q s r.1) : Grow b H C s r.1 := by
  obtain ⟨news, ds, e, hb⟩ := hx
  have hcells : entryCells ds = [] := by
    unfold entryCells
    rw [List.map_eq_nil_iff, List.filterMap_eq_nil_iff]
    intro d hd
    obtain ⟨rg, h1, _⟩ := hb.conf d hd
    cases d <;> first | rfl | cases h1
  refine ⟨ds, by rw [e]; rfl, ?_, by rw [e]; exact Sub.refl _, fun _ c hc => (by rw [hcells] at hc; cases hc), fun hb' => ?_⟩
  · rw [hcells, e]
    exact Filled.refl _
  · obtain ⟨l, k1, ⟨k2, k4⟩, _⟩ := hF hb' s r he
    have e' : r.1.eliminated = s.eliminated ++ news := congrArg Solver.eliminated e
    have e2 : r.1.deductions = s.deductions ++ ds := congrArg Solver.deductions e
    have hl : l = news := List.append_cancel_left (k2.symm.trans e')
    subst hl
    refine ⟨?_, l, k2, k1, fun a ha => (hb.new a ha).1⟩
    · have hle : s.eliminated.length ≤ r.1.eliminated.length := by rw [k2, List.length_append]; omega
      rcases k4 with ⟨_, h1⟩ | ⟨d, h1, h2⟩
      · rw [e2] at h1
        have : ds = [] := by simpa using h1
        subst this
        exact Ranges.nil hle
      · rw [e2] at h1
        have : ds = [d] := List.append_cancel_left h1
        subst this
        refine ⟨hle, ?_, List.pairwise_singleton _ _⟩
        intro d' hd' rg hrg
        rw [List.mem_singleton] at hd'
        subst hd'
        rw [h2] at hrg
        cases hrg
        exact ⟨Nat.le_refl _, Nat.le_refl _⟩

/-! ## Solving -/

/-- A search after an update. -/
theorem search_grow {fuel : Nat} (hf : 1000 ≤ fuel) {s : Solver} (h : W 0 s) {f : Solver → Res (Solver × Bool)}
    {r : Solver × Bool} (he : andThen (s.update fuel false true) (fun s1 => do
      let (s2, _) ← f s1
      .ok (s2, true)) = .ok r)
    (hs : ∀ s1, Base s1 → ∃ F Q, f s1 = F s1 ∧ (b = true → Once F) ∧
      Res.Post (F s1) (fun r => Ext (NewElim s1) Q s1 r.1) False) :
    Grow b H C s r.1 ∧ (r.2 = true → CovNext C s → Cov C r.1.cp r.1.grid) := by
  unfold andThen at he
  obtain ⟨⟨s1, ok⟩, h1, h2⟩ := bind_ok he
  have hu := update_step (sts := []) (fn := false) (fun h => by cases h) hf h
  rw [h1] at hu
  have he1 : Grow b H C s s1 := update_grow (by omega) hf false true h h1 (fun _ h => by cases h)
  cases ok with
  | false => cases h2; exact ⟨he1, fun h => by cases h⟩
  | true =>
    simp only [if_true] at h2
    obtain ⟨F, Q, e, hF, hp⟩ := hs s1 (hu.2 rfl).2
    rw [e] at h2
    obtain ⟨⟨s2, b'⟩, h3, h4⟩ := bind_ok h2
    cases h4
    rw [h3] at hp
    have he2 : Grow b H C s1 s2 := ext_grow (r := (s2, b')) hF h3 hp
    exact ⟨he1.trans he2, fun _ hpre => he2.cov (update_cov hf false h h1 hpre)⟩

theorem nakedLoop_grow {cp : Vector DigitSet 81} (hf : ∀ c : Fin 81, Fits 9 cp[c]) {stop : Bool} :
    ∀ (cells : List (Fin 81)) (s : Solver) (r : Solver × Bool), (H → Cov C cp s.grid) →
      nakedSinglesLoop cp stop cells s = .ok r → Grow b H C s r.1 := by
  intro cells
  induction cells with
  | nil => intro s r _ he; cases he; exact Grow.refl s
  | cons cell cells ih =>
    intro s r hc he
    unfold nakedSinglesLoop at he
    rcases uniqueItem_spec (n := 9) (by omega) (by omega) (by omega) (hf cell) with ⟨_, e⟩ | ⟨d, hu, e⟩ | ⟨_, e⟩
    · simp only [e, Res.ok_bind] at he
      exact ih s r hc he
    · simp only [e, Res.ok_bind] at he
      obtain ⟨⟨s1, ok⟩, h3, h4⟩ := bind_ok he
      have hp : Grow b H C s s1 := Grow.trans (s1 := { s with deduced := s.deduced ++ [⟨cell, d⟩] })
        (Grow.of_eq rfl rfl rfl rfl) (pushed_grow (Or.inl rfl) h3 fun hh hC => by
          rcases hc hh cell hC with h | h
          · have := (hu d.val).mpr rfl
            rw [h] at this
            simp at this
          · exact h)
      have hc1 : H → Cov C cp s1.grid := by
        obtain ⟨_, _, x2, _⟩ := hp
        exact fun hh => (hc hh).keep (Sub.refl _) x2.mono
      dsimp only at h4
      split at h4
      · cases h4; exact hp
      · split at h4
        · cases h4; exact hp
        · exact hp.trans (ih s1 r hc1 h4)
    · simp only [e, Res.ok_bind] at he
      exact ih s r hc he

theorem nakedSingles_grow {fuel : Nat} (hf : 1000 ≤ fuel) {s : Solver} (h : W 0 s) {r : Solver × Bool}
    (he : s.findNakedSingles fuel true = .ok r) (hH : H → Pre C s) :
    Grow b H C s r.1 ∧ (r.2 = true → CovNext C s → Cov C r.1.cp r.1.grid) := by
  unfold Solver.findNakedSingles andThen at he
  obtain ⟨⟨s1, ok⟩, h1, h2⟩ := bind_ok he
  have hu := update_step (sts := []) (fn := false) (fun h => by cases h) hf h
  rw [h1] at hu
  have he1 : Grow b H C s s1 := update_grow (by omega) hf false true h h1 (fun _ h => by cases h)
  cases ok with
  | false => cases h2; exact ⟨he1, fun h => by cases h⟩
  | true =>
    simp only [if_true] at h2
    have hb : Base s1 := (hu.2 rfl).2
    have hcov := fun hp => update_cov (C := C) hf false h h1 hp
    obtain ⟨⟨s2, ok⟩, h3, h4⟩ := bind_ok h2
    have hsp := nakedLoop_spec hb (List.finRange 81)
    have he2 : Grow b H C s1 s2 := nakedLoop_grow hb.w.fits _ _ (s2, ok) (fun hh => hcov (hH hh).covNext) h3
    rw [h3] at hsp
    have last : ∀ {k : Nat} (_ : k ≤ 1), W k s2 → s2.update fuel false true = .ok r →
        Grow b H C s r.1 ∧ (r.2 = true → CovNext C s → Cov C r.1.cp r.1.grid) := by
      intro k hk hw hup
      have he3 : Grow b H C s2 r.1 := update_grow hk hf false true hw hup (fun _ h => by cases h)
      exact ⟨(he1.trans he2).trans he3, fun _ hp => he3.cov (he2.cov (hcov hp))⟩
    rcases hsp with ⟨h5, h6⟩ | ⟨c, d, _, ⟨_, h5⟩ | ⟨h0, h5⟩ | ⟨_, h5⟩⟩
    · have h5 : s2 = s1 := h5
      have h6 : ok = true := h6
      subst h6 h5
      simp only [if_true] at h4
      exact last (Nat.zero_le 1) hb.w h4
    · cases h5
      simp only [if_true] at h4
      exact last (Nat.le_refl 1) (hb.w.push1 _) h4
    · cases h5
      simp only [if_true] at h4
      exact last (Nat.le_refl 1) (pushed_w (e := ⟨c, d⟩) (hb.w.push1 ⟨c, d⟩) h0 (.nakedSingles ⟨c, d⟩)) h4
    · cases h5
      cases h4
      exact ⟨he1.trans he2, fun h => by cases h⟩

theorem hiddenCells_grow {cp : Vector DigitSet 81} (hf : ∀ c : Fin 81, Fits 9 cp[c]) {stop : Bool} {house : Fin 27} :
    ∀ (cells : List (Fin 81)) (singles : DigitSet) (s : Solver) (r : Solver × Option Bool), (H → Cov C cp s.grid) →
    hiddenSinglesCells cp stop house cells singles s = .ok r → Grow b H C s r.1 := by
  intro cells
  induction cells with
  | nil => intro _ s r _ he; cases he; exact Grow.refl s
  | cons cell cells ih =>
    intro singles s r hc he
    unfold hiddenSinglesCells at he
    rcases uniqueItem_spec (n := 9) (by omega) (by omega) (by omega) ((hf cell).inter_left (b := singles))
      with ⟨_, e⟩ | ⟨d, hu, e⟩ | ⟨_, e⟩
    · simp only [e, Res.ok_bind] at he
      exact ih singles s r hc he
    · simp only [e, Res.ok_bind] at he
      obtain ⟨⟨s1, ok⟩, h3, h4⟩ := bind_ok he
      have hp : Grow b H C s s1 := pushed_grow (Or.inr ⟨_, rfl⟩) h3 fun hh hC => by
        rcases hc hh cell hC with h | h
        · have := (hu d.val).mpr rfl
          rw [bit_inter, h] at this
          simp at this
        · exact h
      have hc1 : H → Cov C cp s1.grid := by
        obtain ⟨_, _, x2, _⟩ := hp
        exact fun hh => (hc hh).keep (Sub.refl _) x2.mono
      dsimp only at h4
      split at h4
      · cases h4; exact hp
      · split at h4
        · cases h4; exact hp
        · split at h4
          · cases h4; exact hp
          · exact hp.trans (ih _ s1 r hc1 h4)
    · simp only [e, Res.ok_bind] at he
      cases he
      exact Grow.refl s

theorem hiddenLoop_grow {cp : Vector DigitSet 81} (hf : ∀ c : Fin 81, Fits 9 cp[c]) {hs : Vector DigitSet 27} {stop : Bool} :
    ∀ (houses : List (Fin 27)) (s : Solver) (r : Solver × Bool), (H → Cov C cp s.grid) →
      hiddenSinglesLoop cp hs stop houses s = .ok r → Grow b H C s r.1 := by
  intro houses
  induction houses with
  | nil => intro s r _ he; cases he; exact Grow.refl s
  | cons house houses ih =>
    intro s r hc he
    unfold hiddenSinglesLoop at he
    dsimp only at he
    have h0 : Grow b H C s { s with lastHouse := if s.lastHouse < 27 then s.lastHouse + 1 else 0 } :=
      Grow.of_eq rfl rfl rfl rfl
    obtain ⟨cells, _, h2⟩ := bind_ok he
    split at h2
    · cases h2; exact h0
    · split at h2
      · exact h0.trans (ih _ r hc h2)
      · obtain ⟨⟨s1, v⟩, h3, h4⟩ := bind_ok h2
        have hx : Grow b H C _ s1 := hiddenCells_grow hf _ _ { s with lastHouse := if s.lastHouse < 27 then s.lastHouse + 1 else 0 } (s1, v) hc h3
        have hc1 : H → Cov C cp s1.grid := by
          obtain ⟨_, _, x2, _⟩ := hx
          exact fun hh => (hc hh).keep (Sub.refl _) x2.mono
        have h1 := h0.trans hx
        match v, h4 with
        | none, h4 => cases h4; exact h1
        | some true, h4 => cases h4; exact h1
        | some false, h4 => exact h1.trans (ih s1 r hc1 h4)

theorem hiddenSingles_grow {fuel : Nat} (hf : 1000 ≤ fuel) {stop : Bool} {s : Solver} (h : W 0 s)
    {r : Solver × Bool} (he : s.findHiddenSingles fuel stop = .ok r) (hH : H → Pre C s) :
    Grow b H C s r.1 ∧ (r.2 = true → CovNext C s → Cov C r.1.cp r.1.grid) := by
  unfold Solver.findHiddenSingles andThen at he
  obtain ⟨⟨s1, ok⟩, h1, h2⟩ := bind_ok he
  have hu := update_step (sts := []) (fn := false) (fun h => by cases h) hf h
  rw [h1] at hu
  have he1 : Grow b H C s s1 := update_grow (by omega) hf false true h h1 (fun _ h => by cases h)
  cases ok with
  | false => cases h2; exact ⟨he1, fun h => by cases h⟩
  | true =>
    simp only [if_true] at h2
    have hb : Base s1 := (hu.2 rfl).2
    have hcov := fun hp => update_cov (C := C) hf false h h1 hp
    obtain ⟨⟨s2, ok⟩, h3, h4⟩ := bind_ok h2
    have he2 : Grow b H C s1 s2 := hiddenLoop_grow hb.w.fits _ _ (s2, ok) (fun hh => hcov (hH hh).covNext) h3
    have hsp := hiddenLoop_spec (sts := [.hiddenSingles]) (by simp) hb stop
      (((List.finRange 27 ++ List.finRange 27).drop s1.lastHouse).take 27) s1
      ⟨hb.w, Meas.refl _, rfl, fun _ h => Or.inl h, fun g hs => ⟨Run.refl _, hs⟩⟩
    rw [h3] at hsp
    cases ok with
    | false => cases h4; exact ⟨he1.trans he2, fun h => by cases h⟩
    | true =>
      simp only [if_true] at h4
      have he3 : Grow b H C s2 r.1 := update_grow (by omega) hf false true hsp.1.w h4 (fun _ h => by cases h)
      exact ⟨(he1.trans he2).trans he3, fun _ hp => he3.cov (he2.cov (hcov hp))⟩

theorem deduce_grow {st : Strategy} {fuel : Nat} (hf : 1000 ≤ fuel) {stop isFirst : Bool}
    (hsf : isFirst = !stop) (hb : b = true → stop = true ∨ st = .nakedSingles ∨ st = .hiddenSingles) {s : Solver}
    (h : W 0 s) {r : Solver × Bool} (he : st.deduce fuel stop isFirst s = .ok r) (hH : H → Pre C s) :
    Grow b H C s r.1 ∧ (r.2 = true → CovNext C s → Cov C r.1.cp r.1.grid) := by
  have hsub : ∀ (size : UInt8), subsetStrategy false size.toNat = some st → (b = true → stop = true) →
      s.findNakedSubsets fuel size stop = .ok r →
      Grow b H C s r.1 ∧ (r.2 = true → CovNext C s → Cov C r.1.cp r.1.grid) := by
    intro size hs hb he
    exact search_grow hf h he fun s1 h1 => ⟨_, _, rfl, fun h => by rw [hb h]; exact nakedSubsets_once h1.w.fits size,
      nakedSubsets_search h1.w.fits h1.removed hs stop⟩
  have hhid : ∀ (size : UInt8), subsetStrategy true size.toNat = some st → (b = true → stop = true) →
      s.findHiddenSubsets fuel size stop = .ok r →
      Grow b H C s r.1 ∧ (r.2 = true → CovNext C s → Cov C r.1.cp r.1.grid) := by
    intro size hs hb he
    unfold Solver.findHiddenSubsets andThen at he
    obtain ⟨⟨s1, ok⟩, h1, h2⟩ := bind_ok he
    have hu := update_step (sts := []) (fn := false) (fun h => by cases h) hf h
    rw [h1] at hu
    have he1 : Grow b H C s s1 := update_grow (by omega) hf false true h h1 (fun _ h => by cases h)
    cases ok with
    | false => cases h2; exact ⟨he1, fun h => by cases h⟩
    | true =>
      simp only [if_true] at h2
      have hb1 : Base s1 := (hu.2 rfl).2
      obtain ⟨s2, e, _, h6, h7, h9, _⟩ := updateHousePoss_step (sts := []) hb1.w
      have h9 := h9 hb1
      obtain ⟨hp, hpE, hpN, e', _⟩ := updateHousePoss_w (k := 0) (by omega) hb1.w
      rw [e] at e'
      have e' := Res.ok.inj e'
      have he2 : Grow b H C s1 s2 := by rw [e']; exact Grow.of_eq rfl rfl rfl rfl
      rw [e, Res.ok_bind] at h2
      obtain ⟨⟨s3, b'⟩, h3, h4⟩ := bind_ok h2
      cases h4
      have hx := hiddenSubsets_search h9.w.fitsP h6 hs stop
      rw [h3] at hx
      have he3 : Grow b H C s2 s3 := ext_grow (r := (s3, b'))
        (fun h => by rw [hb h]; exact hiddenSubsets_once h9.w.fitsP size) h3 hx
      exact ⟨(he1.trans he2).trans he3, fun _ hp => he3.cov (he2.cov (update_cov hf false h h1 hp))⟩
  have hpre : ∃ s2, s.updateHousePoss = .ok s2 ∧ W 0 s2 ∧ Grow b H C s s2 ∧ (CovNext C s → CovNext C s2) := by
    obtain ⟨s2, e, h5, h6, h7, _, _⟩ := updateHousePoss_step (sts := []) h
    obtain ⟨hp, hpE, hpN, e', _⟩ := updateHousePoss_w (k := 0) (by omega) h
    rw [e] at e'
    have e' := Res.ok.inj e'
    exact ⟨s2, e, h5, by rw [e']; exact Grow.of_eq rfl rfl rfl rfl, by rw [e']; exact id⟩
  have hfish : ∀ (size : UInt8), fishStrategy size.toNat = some st → (b = true → stop = true) →
      s.findFish fuel size stop = .ok r →
      Grow b H C s r.1 ∧ (r.2 = true → CovNext C s → Cov C r.1.cp r.1.grid) := by
    intro size hs hb he
    obtain ⟨s2, e, h5, d2, d3⟩ := hpre
    unfold Solver.findFish at he
    rw [e, Res.ok_bind] at he
    obtain ⟨k1, k2⟩ := search_grow (b := b) (H := H) (C := C) hf h5 he fun s1 h1 => ⟨_, _, rfl,
      fun h => by rw [hb h]; exact fish_once h1.w.fitsP size, fish_search h1.w.fitsP h1.removed hs stop⟩
    exact ⟨d2.trans k1, fun ht hp => k2 ht (d3 hp)⟩
  have hmut : ∀ (size : UInt8), size ≠ 0 → s.findMutantFish fuel size stop = .ok r →
      Grow b H C s r.1 ∧ (r.2 = true → CovNext C s → Cov C r.1.cp r.1.grid) := by
    intro size hs he
    obtain ⟨s2, e, h5, d2, d3⟩ := hpre
    unfold Solver.findMutantFish at he
    rw [e, Res.ok_bind] at he
    unfold andThen at he
    obtain ⟨⟨s1, ok⟩, h1, h2⟩ := bind_ok he
    have hu := update_step (sts := []) (fn := false) (fun h => by cases h) hf h5
    rw [h1] at hu
    have he1 : Grow b H C s s1 := d2.trans (update_grow (by omega) hf false true h5 h1 (fun _ h => by cases h))
    cases ok with
    | false => cases h2; exact ⟨he1, fun h => by cases h⟩
    | true =>
      simp only [if_true] at h2
      obtain ⟨⟨s3, b'⟩, h3, h4⟩ := bind_ok h2
      cases h4
      have hx := mutantFish_search (hu.2 rfl).2.w.fitsP hs stop
      rw [h3] at hx
      have hx : s3 = s1 := hx
      subst hx
      exact ⟨he1, fun _ hp => update_cov hf false h5 h1 (d3 hp)⟩
  have hst : st ≠ .nakedSingles → st ≠ .hiddenSingles → b = true → stop = true := fun h1 h2 h3 => by
    rcases hb h3 with h | h | h
    · exact h
    · exact absurd h h1
    · exact absurd h h2
  unfold Strategy.deduce at he
  cases st with
  | nakedSingles =>
    dsimp only at he
    split at he
    · refine ⟨update_grow (by omega) hf true true h he fun hh _ => ⟨rfl, hH hh⟩, fun ht hp => ?_⟩
      obtain ⟨s1, ok⟩ := r
      cases ht
      exact update_cov hf true h he hp
    · rename_i hc
      have : stop = true := by
        subst hsf
        cases stop
        · exact absurd rfl hc
        · rfl
      subst this
      exact nakedSingles_grow hf h he hH
  | hiddenSingles => exact hiddenSingles_grow hf h he hH
  | lockedCandidates =>
    exact search_grow hf h he fun s1 h1 => ⟨_, _, rfl,
      fun hb => by rw [hst (by decide) (by decide) hb]; exact locked_once h1.w.fits, locked_search h1.w.fits h1.removed stop⟩
  | nakedPairs => exact hsub 2 rfl (hst (by decide) (by decide)) he
  | nakedTriples => exact hsub 3 rfl (hst (by decide) (by decide)) he
  | nakedQuads => exact hsub 4 rfl (hst (by decide) (by decide)) he
  | hiddenPairs => exact hhid 2 rfl (hst (by decide) (by decide)) he
  | hiddenTriples => exact hhid 3 rfl (hst (by decide) (by decide)) he
  | hiddenQuads => exact hhid 4 rfl (hst (by decide) (by decide)) he
  | xWing => exact hfish 2 rfl (hst (by decide) (by decide)) he
  | swordfish => exact hfish 3 rfl (hst (by decide) (by decide)) he
  | jellyfish => exact hfish 4 rfl (hst (by decide) (by decide)) he
  | xyWing =>
    exact search_grow hf h he fun s1 h1 => ⟨_, _, rfl,
      fun hb => by rw [hst (by decide) (by decide) hb]; exact xyWing_once _, xyWing_search h1.w.fits h1.removed stop⟩
  | xyzWing =>
    exact search_grow hf h he fun s1 h1 => ⟨_, _, rfl,
      fun hb => by rw [hst (by decide) (by decide) hb]; exact xyzWing_once _, xyzWing_search h1.w.fits h1.removed stop⟩
  | mutantSwordfish => exact hmut 3 (by decide) he
  | mutantJellyfish => exact hmut 4 (by decide) he
  | avoidableRectangles => cases he

theorem restLoop_grow {fuel : Nat} (hf : 1000 ≤ fuel) {n m : Nat} : ∀ (rest : List Strategy) (s : Solver)
    (r : Solver × Bool), W 0 s → (H → Cov C s.cp s.grid) → restLoop fuel n m rest s = .ok r →
    Grow b H C s r.1 ∧ (r.2 = true → W 0 r.1) := by
  intro rest
  induction rest with
  | nil => intro s r h _ he; cases he; exact ⟨Grow.refl s, fun _ => h⟩
  | cons st rest ih =>
    intro s r h hc he
    unfold restLoop at he
    obtain ⟨⟨s1, ok⟩, h1, h2⟩ := bind_ok he
    have hav : st ≠ .avoidableRectangles := by
      rintro rfl
      cases h1
    have hst := deduce_step (sts := [st]) (by simp) hav hf (stop := true) (isFirst := false) rfl h
    rw [h1] at hst
    have hn1 : Grow b H C s s1 := (deduce_grow hf rfl (fun _ => Or.inl rfl) h h1 fun hh => Or.inl (hc hh)).1
    cases ok
    · cases h2
      exact ⟨hn1, fun h => by cases h⟩
    · simp only [Bool.not_true, Bool.false_eq_true, if_false] at h2
      split at h2
      · cases h2
        exact ⟨hn1, fun _ => hst.w rfl⟩
      · obtain ⟨k1, k2⟩ := ih s1 r (hst.w rfl) (fun hh => hn1.cov (hc hh)) h2
        exact ⟨hn1.trans k1, k2⟩

/-- Each cell is entered once.  With singles first, each candidate is excluded once. -/
theorem solveLoop_grow {first : Strategy}
    (h1st : b = true → first = .nakedSingles ∨ first = .hiddenSingles) {rest : List Strategy}
    {fuel0 : Nat} (hf : 1000 ≤ fuel0) : ∀ (fuel : Nat) (s s' : Solver), W 0 s → (H → Pre C s) →
    solveLoop fuel0 first rest fuel s = .ok s' → Grow b H C s s' := by
  intro fuel
  induction fuel with
  | zero => intro s s' _ _ he; cases he
  | succ fuel ih =>
    intro s s' h hH he
    unfold solveLoop at he
    split at he
    · cases he; exact Grow.refl s
    · dsimp only at he
      obtain ⟨⟨s1, ok⟩, h1, h2⟩ := bind_ok he
      have hav : first ≠ .avoidableRectangles := by
        rintro rfl
        cases h1
      have hst := deduce_step (sts := [first]) (by simp) hav hf (stop := false) (isFirst := true) rfl h
      rw [h1] at hst
      obtain ⟨hn1, hcov⟩ := deduce_grow (H := H) (C := C) hf rfl (fun h => Or.inr (h1st h)) h h1 hH
      have hn1 : Grow b H C s s1 := hn1
      cases ok
      · cases h2
        exact hn1
      · simp only [Bool.not_true, Bool.false_eq_true, if_false] at h2
        have hc1 : H → Cov C s1.cp s1.grid := fun hh => hcov rfl (hH hh).covNext
        split at h2
        · exact hn1.trans (ih s1 s' (hst.w rfl) (fun hh => Or.inl (hc1 hh)) h2)
        · obtain ⟨⟨s2, again⟩, h3, h4⟩ := bind_ok h2
          obtain ⟨k1, k2⟩ := restLoop_grow (b := b) (H := H) (C := C) hf rest s1 _ (hst.w rfl) hc1 h3
          cases again
          · cases h4
            exact hn1.trans k1
          · exact (hn1.trans k1).trans (ih s2 s' (k2 rfl) (fun hh => Or.inl (k1.cov (hc1 hh))) h4)

theorem trySolve_grow {sts : List Strategy}
    (h1st : b = true → sts.head? ≠ none → sts.head? = some .nakedSingles ∨ sts.head? = some .hiddenSingles)
    {fuel : Nat} (hf : 1000 ≤ fuel) {s s' : Solver} (h : W 0 s) (hH : H → Pre C s) (he : s.trySolve fuel sts = .ok s') : Grow b H C s s' := by
  unfold Solver.trySolve at he
  cases sts with
  | nil => cases he; exact Grow.refl s
  | cons first rest =>
    exact solveLoop_grow (fun hb => by simpa using h1st hb (by simp)) hf fuel s s' h hH he

theorem nodup_length {l : List Candidate} (h : l.Nodup) : l.length ≤ 729 := by
  have h1 := candCount_le l
  unfold candCount at h1
  rw [List.toFinset_card_of_nodup (h.map (fun x y e => by
    obtain ⟨c, d⟩ := x
    obtain ⟨c', d'⟩ := y
    cases e
    rfl)), List.length_map] at h1
  exact h1

/-! ## The initial state -/

theorem update_elim {k : Nat} (hk : k ≤ 1) {fuel : Nat} (hf : 1000 ≤ fuel) (fn early : Bool) {s : Solver} (h : W k s)
    {r : Solver × Bool} (he : s.update fuel fn early = .ok r) : r.1.eliminated = s.eliminated := by
  have := update_w (k := k) (by omega) fn early (fuel := fuel) (by omega) s h
  rw [he] at this
  exact this.2.1.elim

theorem fold_nodup {state : Vector CellState 81} : ∀ (l : List (Fin 81)) (a b : List Candidate) (r : List Candidate × List Candidate),
    l.Nodup → b.Nodup → (∀ e ∈ b, e.cell ∉ l) → l.foldlM (m := Res) (fun (acc : List Candidate × List Candidate) cell =>
      match state[cell] with
      | .digit d => .ok (acc.1 ++ [⟨cell, d⟩], acc.2)
      | .candidates cands => do
        let digits ← Bitset.items 9 (Bitset.compl 9 cands)
        .ok (acc.1, acc.2 ++ digits.map (fun d => ⟨cell, d⟩))) (a, b) = .ok r → r.2.Nodup := by
  intro l
  induction l with
  | nil => intro a b r _ hb _ he; cases he; exact hb
  | cons x xs ih =>
    intro a b r hl hb hd he
    rw [List.nodup_cons] at hl
    rw [List.foldlM_cons] at he
    obtain ⟨⟨a', b'⟩, h1, h2⟩ := bind_ok he
    dsimp only at h1
    split at h1
    · cases h1
      exact ih _ _ r hl.2 hb (fun e he hc => hd e he (by simp [hc])) h2
    · rename_i cands hx
      rw [items_eq (by omega) (by omega) (fits_compl cands), Res.ok_bind] at h1
      cases h1
      refine ih _ _ r hl.2 ?_ ?_ h2
      · rw [List.nodup_append]
        refine ⟨hb, nodup_cellConflicts _ _, fun e he e' he' hee => ?_⟩
        subst hee
        obtain ⟨d, _, rfl⟩ := List.mem_map.mp he'
        exact hd _ he (by simp)
      · intro e he hc
        rcases List.mem_append.mp he with he | he
        · exact hd e he (by simp [hc])
        · obtain ⟨d, _, rfl⟩ := List.mem_map.mp he
          exact hl.1 hc

theorem Reaches.nodup {looked : Bool} {s : Solver} {g : Grid} {X : Fin 81 → Digit → Prop} (h : Reaches looked s g X) :
    s.eliminated.Nodup := by
  induction h with
  | @sudoku g s hg he =>
    unfold Solver.fromSudoku at he
    obtain ⟨l, _, h2⟩ := bind_ok he
    cases h2
    exact List.nodup_nil
  | @gridState state s he =>
    unfold Solver.fromGridState at he
    obtain ⟨⟨a, b⟩, h1, h2⟩ := bind_ok he
    cases h2
    exact fold_nodup _ _ _ _ (List.nodup_finRange 81) List.nodup_nil (by simp) h1
  | toSudoku _ ih => exact ih
  | @cellState looked s s' g X fuel c r h hf he ih =>
    unfold Solver.cellState at he
    obtain ⟨⟨s1, ok⟩, h1, h2⟩ := bind_ok he
    obtain ⟨x, _, h3⟩ := bind_ok h2
    cases h3
    have := update_elim (by omega) hf false false h.inv.1.updateGrid.1.w h1
    rw [this]
    exact ih
  | @insertOk looked s s' g X e _ he ih =>
    have : s'.eliminated = s.eliminated := by
      unfold Solver.insertCandidate at he
      obtain ⟨⟨s1, ok⟩, h1, h2⟩ := bind_ok he
      rcases push_cases s.updateGrid e (.nakedSingles e) (Or.inl rfl) with ⟨_, e1⟩ | ⟨_, e1⟩ | ⟨_, _, e1⟩ <;>
        (rw [e1] at h1; cases h1; cases h2; try rfl)
    rw [this]
    exact ih
  | @insertErr looked s s' g X e _ he ih =>
    have : s'.eliminated = s.eliminated := by
      unfold Solver.insertCandidate at he
      obtain ⟨⟨s1, ok⟩, h1, h2⟩ := bind_ok he
      rcases push_cases s.updateGrid e (.nakedSingles e) (Or.inl rfl) with ⟨_, e1⟩ | ⟨_, e1⟩ | ⟨_, _, e1⟩ <;>
        (rw [e1] at h1; cases h1; cases h2; try rfl)
    rw [this]
    exact ih

/-! ## Reading the deductions -/

theorem get_raw {ds : Deductions} {i : Nat} {x : Deduction (List Candidate)} (h : ds.get i = .ok (some x)) :
    ∃ d, ds.deductions[i]? = some d ∧ withSlices d ds.eliminated = .ok x := by
  unfold Deductions.get at h
  split at h
  · cases h
  · rename_i d hd
    obtain ⟨y, h1, h2⟩ := bind_ok h
    cases h2
    exact ⟨d, hd, h1⟩

/-- The excluded candidates of a deduction, as a part of the list. -/
theorem withSlices_removed {d : RangeDeduction} {elim : List Candidate} {x : Deduction (List Candidate)}
    (h : withSlices d elim = .ok x) : (d.conf = none ∧ Pattern.removed x = []) ∨
      ∃ rg, d.conf = some rg ∧ Pattern.removed x = (elim.take rg.2).drop rg.1 := by
  have key : ∀ (rg : Nat × Nat) (f : List Candidate → Deduction (List Candidate)),
      (slice elim rg >>= fun l => Res.ok (f l)) = .ok x → x = f ((elim.take rg.2).drop rg.1) := by
    intro rg f hf
    obtain ⟨l, h1, h2⟩ := bind_ok hf
    cases h2
    rw [slice_ok h1]
  cases d with
  | nakedSingles c => cases h; exact Or.inl ⟨rfl, rfl⟩
  | hiddenSingles c y => cases h; exact Or.inl ⟨rfl, rfl⟩
  | avoidableRectangle l c => cases h
  | lockedCandidates a b c rg =>
    rw [key rg (fun l => .lockedCandidates a b c l) h]
    exact Or.inr ⟨rg, rfl, rfl⟩
  | subsets a b c rg =>
    rw [key rg (fun l => .subsets a b c l) h]
    exact Or.inr ⟨rg, rfl, rfl⟩
  | basicFish a b c rg =>
    rw [key rg (fun l => .basicFish a b c l) h]
    exact Or.inr ⟨rg, rfl, rfl⟩
  | fish a b c rg =>
    rw [key rg (fun l => .fish a b c l) h]
    exact Or.inr ⟨rg, rfl, rfl⟩
  | wing a b c rg =>
    rw [key rg (fun l => .wing a b c l) h]
    exact Or.inr ⟨rg, rfl, rfl⟩

theorem Grow.entries {s s' : Solver} (h : Grow b H C s s') (h0 : s.deductions = []) {ds : Deductions}
    (hd : ds.deductions = s'.deductions) {i j : Nat} {x y : Deduction (List Candidate)} {e e' : Candidate}
    (hx : ds.get i = .ok (some x)) (hy : ds.get j = .ok (some y)) (he : Pattern.entry x = some e)
    (he' : Pattern.entry y = some e') (hc : e.cell = e'.cell) : i = j := by
  obtain ⟨l, h1, h2, _⟩ := h
  rw [h0, List.nil_append] at h1
  rw [← h1, ← hd] at h2
  obtain ⟨d, k1, k2⟩ := get_raw hx
  obtain ⟨d', k3, k4⟩ := get_raw hy
  have e1 : d.single = some e := by rw [← (withSlices_parts k2).1]; exact he
  have e2 : d'.single = some e' := by rw [← (withSlices_parts k4).1]; exact he'
  have hn := h2.nodup
  unfold entryCells at hn
  rw [List.map_filterMap] at hn
  have hp := (List.pairwise_filterMap.mp (List.nodup_iff_pairwise_ne.mp hn))
  by_contra hne
  obtain ⟨hi, k1⟩ := List.getElem?_eq_some_iff.mp k1
  obtain ⟨hj, k3⟩ := List.getElem?_eq_some_iff.mp k3
  rcases Nat.lt_or_gt_of_ne hne with hlt | hlt
  · have := List.pairwise_iff_getElem.mp hp i j hi hj hlt e.cell (by rw [k1, e1]; rfl) e'.cell (by rw [k3, e2]; rfl)
    exact this hc
  · have := List.pairwise_iff_getElem.mp hp j i hj hi hlt e'.cell (by rw [k3, e2]; rfl) e.cell (by rw [k1, e1]; rfl)
    exact this hc.symm

theorem mem_slice_index {l : List Candidate} {rg : Nat × Nat} {e : Candidate} (h : e ∈ (l.take rg.2).drop rg.1) :
    ∃ n, rg.1 ≤ n ∧ n < rg.2 ∧ l[n]? = some e := by
  obtain ⟨n, hn⟩ := List.mem_iff_getElem?.mp h
  rw [List.getElem?_drop, List.getElem?_take] at hn
  split at hn
  · exact ⟨rg.1 + n, by omega, by assumption, hn⟩
  · cases hn

theorem nodup_index {l : List Candidate} (h : l.Nodup) {i j : Nat} {e : Candidate} (hi : l[i]? = some e)
    (hj : l[j]? = some e) : i = j := by
  obtain ⟨h1, h2⟩ := List.getElem?_eq_some_iff.mp hi
  obtain ⟨h3, h4⟩ := List.getElem?_eq_some_iff.mp hj
  exact (List.Nodup.getElem_inj_iff h).mp (h2.trans h4.symm)

theorem Grow.exclusions {s s' : Solver} (h : Grow true H C s s') (h0 : s.deductions = []) (hn : s.eliminated.Nodup)
    {ds : Deductions}
    (hd : ds.deductions = s'.deductions) (hel : ds.eliminated = s'.eliminated) {i : Nat} {x : Deduction (List Candidate)}
    (hx : ds.get i = .ok (some x)) : (Pattern.removed x).Nodup ∧ (∀ e ∈ Pattern.removed x, e ∉ s.eliminated) ∧
      ∀ j y e, ds.get j = .ok (some y) → e ∈ Pattern.removed x → e ∈ Pattern.removed y → i = j := by
  have h5 := h.nodup hn
  obtain ⟨l, h1, _, _, _, h3⟩ := h
  obtain ⟨h4, news, hnews, -⟩ := h3 rfl
  rw [h0, List.nil_append] at h1
  rw [← h1, ← hd] at h4
  rw [← hel] at h5
  obtain ⟨d, k1, k2⟩ := get_raw hx
  have hx' := withSlices_removed k2
  refine ⟨?_, ?_, ?_⟩
  · rcases hx' with ⟨_, e⟩ | ⟨rg, _, e⟩
    · rw [e]; exact List.nodup_nil
    · rw [e]
      exact (h5.sublist (List.take_sublist _ _)).sublist (List.drop_sublist _ _)
  · intro e he hs
    rcases hx' with ⟨_, e'⟩ | ⟨rg, hc, e'⟩
    · rw [e'] at he; cases he
    · rw [e'] at he
      obtain ⟨n, n1, n2, n3⟩ := mem_slice_index he
      obtain ⟨m, m1⟩ := List.mem_iff_getElem?.mp hs
      have := h4.mem d (List.mem_of_getElem? k1) rg hc
      have hm : m < s.eliminated.length := (List.getElem?_eq_some_iff.mp m1).1
      have m2 : ds.eliminated[m]? = some e := by
        rw [hel, hnews, List.getElem?_append_left hm]
        exact m1
      have := nodup_index h5 n3 m2
      omega
  · intro j y e hy hex hey
    obtain ⟨d', k3, k4⟩ := get_raw hy
    by_contra hne
    obtain ⟨hi, q1⟩ := List.getElem?_eq_some_iff.mp k1
    obtain ⟨hj, q3⟩ := List.getElem?_eq_some_iff.mp k3
    rcases hx' with ⟨_, e'⟩ | ⟨rg, hc, e'⟩
    · rw [e'] at hex; cases hex
    rcases withSlices_removed k4 with ⟨_, e''⟩ | ⟨rg', hc', e''⟩
    · rw [e''] at hey; cases hey
    rw [e'] at hex
    rw [e''] at hey
    obtain ⟨n, n1, n2, n3⟩ := mem_slice_index hex
    obtain ⟨m, m1, m2, m3⟩ := mem_slice_index hey
    have := nodup_index h5 n3 m3
    rcases Nat.lt_or_gt_of_ne hne with hlt | hlt
    · have := List.pairwise_iff_getElem.mp h4.pairwise i j hi hj hlt rg rg' (by rw [q1]; exact hc) (by rw [q3]; exact hc')
      omega
    · have := List.pairwise_iff_getElem.mp h4.pairwise j i hj hi hlt rg' rg (by rw [q3]; exact hc') (by rw [q1]; exact hc)
      omega

end Verif.Strat
