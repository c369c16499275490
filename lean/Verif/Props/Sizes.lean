import Verif.Proofs.Complement
import Verif.Props.Moved

/-!
# C70: subsets and fish of all sizes

`Moved` is imported so that files that need much memory are not checked at the same time.
-/
namespace Verif.Props

open Verif Verif.Strat

variable {looked : Bool} {s : Solver} {g : Grid} {X : Fin 81 → Digit → Prop} {fuel : Nat}

/-- The candidates that are left go with every solution. -/
private theorem left_live (h : Reaches looked s g X) (hf : 1000 ≤ fuel) (sts : List Strategy) (r : Grid × Deductions)
    (hr : Returned fuel sts s r) (t : Grid) (ht : SolutionOf g X t) : Live t (fun c => r.1[c] ≠ 0) (Left r X) := by
  obtain ⟨s1, s2⟩ := C39_sound h hf _ r hr t ht
  refine ⟨fun c d hld hne => hne hld.1, fun c h0 => ?_, fun c c' d hne hs hld hd => ?_⟩
  · have h0 : r.1[c] = 0 := by simpa using h0
    have htc := dig_spec ht.1.1 c
    refine ⟨h0, fun hx => ht.2 _ _ hx htc, fun c' hs hc' => ?_, fun i x hx hm => (s2 i x hx).2 _ hm htc⟩
    have hne0 : r.1[c'] ≠ 0 := by rw [hc']; exact Digit.get_ne_zero _
    have h1 := (s1 c').resolve_left hne0
    by_cases hcc : c' = c
    · subst hcc; exact hne0 h0
    · exact ht.1.1.2 c' _ hcc hs (by rw [← h1, hc', htc])
  · refine hld.2.2.1 c' hs ?_
    rw [(s1 _).resolve_left hne, dig_spec ht.1.1, hd]

/-- The strategies for subsets, with both kinds of singles. -/
def subsetStrategies : List Strategy :=
  [.nakedSingles, .hiddenSingles, .nakedPairs, .nakedTriples, .nakedQuads, .hiddenPairs, .hiddenTriples, .hiddenQuads]

/-- The strategies for fish, with hidden singles. -/
def fishStrategies : List Strategy := [.hiddenSingles, .xWing, .swordfish, .jellyfish]

/-- **C70**: subsets of more than four cells need not be searched for: when `solve` gives up with singles and all strategies
for subsets, then no naked and no hidden subset of any size is left that would exclude a candidate. -/
theorem C70_subsets (h : Reaches looked s g X) (hf : 1000 ≤ fuel) (first : Strategy) (rest : List Strategy)
    (r : Grid × Deductions) (hr : s.solve fuel (first :: rest) = .ok (.error r))
    (t : Grid) (ht : SolutionOf g X t) (hst : ∀ st ∈ subsetStrategies, Exhausted first rest st)
    (n house : Nat) (ps : PosSet) (ds : DigitSet) (l : List Candidate) :
    ¬ Pattern.NakedSubset (Left r X) n house ps ds l ∧ ¬ Pattern.HiddenSubset (Left r X) n house ps ds l := by
  have hnone : ∀ st ∈ subsetStrategies, ∀ x, ¬ Pattern.Matches (Left r X) st x := by
    intro st hmem
    refine C50_nothing_left_partial h hf first rest r hr t ht st (hst st hmem) fun st' hst' => ?_
    simp only [subsetStrategies, List.mem_cons, List.not_mem_nil, or_false] at hmem
    rcases hmem with rfl | rfl | rfl | rfl | rfl | rfl | rfl | rfl <;> simp [helpers] at hst'
  have live := left_live h hf _ r (Or.inr hr) t ht
  have small : ∀ n house ps ds l, n ≤ 4 → ¬ Pattern.NakedSubset (Left r X) n house ps ds l := by
    intro n house ps ds l hn hm
    have hm' := hm
    obtain ⟨a1, a2, a3, a4, a5, hne, a6⟩ := hm
    obtain ⟨⟨c0, d0⟩, he⟩ := List.exists_mem_of_ne_nil l hne
    obtain ⟨⟨hin, hout, hd0⟩, hcd0⟩ := (a6 c0 d0).mp he
    obtain ⟨house, rfl⟩ : ∃ h' : Fin 27, house = h'.val := ⟨⟨house, inHouse_lt hin⟩, rfl⟩
    match n, hn with
    | 0, _ => exact absurd (Finset.card_pos.mpr ⟨_, hd0⟩) (by omega)
    | 1, _ =>
      obtain ⟨p, hp⟩ := Finset.card_eq_one.mp a1
      obtain ⟨q, hq⟩ := Finset.card_eq_one.mp a2
      have hpm : Pattern.Has ps p := by show p ∈ elems ps; rw [hp]; exact Finset.mem_singleton_self p
      obtain ⟨c1, c2⟩ := cellIn_spec house (a3 p hpm)
      obtain ⟨⟨d, hd⟩, hall⟩ := a5 _ c1 (by rw [c2]; exact hpm)
      have uniq : ∀ d, Left r X (cellIn house p) d → d.val = q := by
        intro d hd
        have h1 := hall d hd
        unfold Pattern.Has at h1
        rw [hq] at h1
        exact Finset.mem_singleton.mp h1
      refine hnone .nakedSingles (by simp [subsetStrategies]) (.nakedSingles ⟨cellIn house p, d⟩)
        (show Pattern.NakedSingle _ _ from fun d' => ⟨fun h1 => Fin.ext ((uniq d' h1).trans (uniq d hd).symm), ?_⟩)
      rintro rfl
      exact hd
    | 2, _ => exact hnone .nakedPairs (by simp [subsetStrategies]) (.subsets house ps ds l) hm'
    | 3, _ => exact hnone .nakedTriples (by simp [subsetStrategies]) (.subsets house ps ds l) hm'
    | 4, _ => exact hnone .nakedQuads (by simp [subsetStrategies]) (.subsets house ps ds l) hm'
  have small' : ∀ n house ps ds l, n ≤ 4 → ¬ Pattern.HiddenSubset (Left r X) n house ps ds l := by
    intro n house ps ds l hn hm
    have hm' := hm
    obtain ⟨a1, a2, a3, a4, a5, hne, a6⟩ := hm
    obtain ⟨⟨c0, d0⟩, he⟩ := List.exists_mem_of_ne_nil l hne
    obtain ⟨⟨hin, hinp, hd0⟩, hcd0⟩ := (a6 c0 d0).mp he
    obtain ⟨house, rfl⟩ : ∃ h' : Fin 27, house = h'.val := ⟨⟨house, inHouse_lt hin⟩, rfl⟩
    match n, hn with
    | 0, _ => exact absurd (Finset.card_pos.mpr ⟨_, hinp⟩) (by omega)
    | 1, _ =>
      obtain ⟨p, hp⟩ := Finset.card_eq_one.mp a1
      obtain ⟨q, hq⟩ := Finset.card_eq_one.mp a2
      have hqm : Pattern.Has ds q := by show q ∈ elems ds; rw [hq]; exact Finset.mem_singleton_self q
      obtain ⟨⟨c, hc, hcd⟩, hall⟩ := a5 ⟨q, a4 q hqm⟩ hqm
      have uniq : ∀ c, Pattern.InHouse house c → Left r X c ⟨q, a4 q hqm⟩ → Pattern.posIn house c = p := by
        intro c hc hcd
        have h1 := hall c hc hcd
        unfold Pattern.Has at h1
        rw [hp] at h1
        exact Finset.mem_singleton.mp h1
      refine hidden_none (hnone .hiddenSingles (by simp [subsetStrategies])) (h := house) (e := ⟨c, ⟨q, a4 q hqm⟩⟩)
        ⟨hc, fun c' hc' => ⟨fun h1 => posIn_inj house _ _ hc' hc ((uniq c' hc' h1).trans (uniq c hc hcd).symm), ?_⟩⟩
      rintro rfl
      exact hcd
    | 2, _ => exact hnone .hiddenPairs (by simp [subsetStrategies]) (.subsets house ps ds l) hm'
    | 3, _ => exact hnone .hiddenTriples (by simp [subsetStrategies]) (.subsets house ps ds l) hm'
    | 4, _ => exact hnone .hiddenQuads (by simp [subsetStrategies]) (.subsets house ps ds l) hm'
  constructor
  · intro hm
    obtain ⟨m, ps', ds', h1, -, h2⟩ := naked_complement ht.1.1 live hm
    by_cases hn : n ≤ 4
    · exact small n house ps ds l hn hm
    · exact small' m house ps' ds' l (by omega) h2
  · intro hm
    obtain ⟨m, ps', ds', h1, -, h2⟩ := hidden_complement ht.1.1 live hm
    by_cases hn : n ≤ 4
    · exact small' n house ps ds l hn hm
    · exact small m house ps' ds' l (by omega) h2

/-- **C70**: fish of more than four lines need not be searched for: when `solve` gives up with hidden singles and all
strategies for fish, then no fish of any size is left that would exclude a candidate. -/
theorem C70_fish (h : Reaches looked s g X) (hf : 1000 ≤ fuel) (first : Strategy) (rest : List Strategy)
    (r : Grid × Deductions) (hr : s.solve fuel (first :: rest) = .ok (.error r))
    (t : Grid) (ht : SolutionOf g X t) (hst : ∀ st ∈ fishStrategies, Exhausted first rest st)
    (n : Nat) (digit : Digit) (ls : LineSet) (ps : PosSet) (l : List Candidate) :
    ¬ Pattern.BasicFish (Left r X) n digit ls ps l := by
  have hnone : ∀ st ∈ fishStrategies, ∀ x, ¬ Pattern.Matches (Left r X) st x := by
    intro st hmem
    refine C50_nothing_left_partial h hf first rest r hr t ht st (hst st hmem) fun st' hst' => ?_
    simp only [fishStrategies, List.mem_cons, List.not_mem_nil, or_false] at hmem
    rcases hmem with rfl | rfl | rfl | rfl <;> simp [helpers] at hst' <;> subst hst' <;>
      exact hst _ (by simp [fishStrategies])
  have live := left_live h hf _ r (Or.inr hr) t ht
  have small : ∀ n ls ps, n ≤ 4 → ¬ Pattern.BasicFish (Left r X) n digit ls ps l := by
    intro n ls ps hn hm
    have hm' := hm
    obtain ⟨a1, a2, a3, dir, hdir, a4, a5, hne, a6⟩ := hm
    obtain ⟨⟨c0, d0⟩, he⟩ := List.exists_mem_of_ne_nil l hne
    obtain ⟨⟨hd0, l0, g1, g2, g3, g4, g5⟩, hcd0⟩ := (a6 c0 d0).mp he
    match n, hn with
    | 0, _ => exact absurd (Finset.card_pos.mpr ⟨_, g5⟩) (by omega)
    | 1, _ =>
      obtain ⟨p, hp⟩ := Finset.card_eq_one.mp a1
      obtain ⟨q, hq⟩ := Finset.card_eq_one.mp a2
      have hpm : Pattern.Has ls p := by show p ∈ elems ls; rw [hp]; exact Finset.mem_singleton_self p
      obtain ⟨⟨c, hc, hcd⟩, hall⟩ := a5 p hpm
      have hp27 : p < 27 := inHouse_lt hc
      have uniq : ∀ c, Pattern.InHouse p c → Left r X c digit → Pattern.posIn p c = q := by
        intro c hc hcd
        have h1 := hall c hc hcd
        unfold Pattern.Has at h1
        rw [hq] at h1
        exact Finset.mem_singleton.mp h1
      refine hidden_none (hnone .hiddenSingles (by simp [fishStrategies])) (h := ⟨p, hp27⟩) (e := ⟨c, digit⟩)
        ⟨hc, fun c' hc' => ⟨fun h1 => posIn_inj ⟨p, hp27⟩ _ _ hc' hc ((uniq c' hc' h1).trans (uniq c hc hcd).symm), ?_⟩⟩
      rintro rfl
      exact hcd
    | 2, _ => exact hnone .xWing (by simp [fishStrategies]) (.basicFish digit ls ps l) hm'
    | 3, _ => exact hnone .swordfish (by simp [fishStrategies]) (.basicFish digit ls ps l) hm'
    | 4, _ => exact hnone .jellyfish (by simp [fishStrategies]) (.basicFish digit ls ps l) hm'
  intro hm
  obtain ⟨m, ls', ps', h1, -, h2⟩ := fish_complement ht.1.1 live hm
  by_cases hn : n ≤ 4
  · exact small n ls ps hn hm
  · exact small m ls' ps' (by omega) h2

/-! ## Cases that meet the hypotheses -/

set_option maxRecDepth 100000

/-- Singles, all subsets and all fish. -/
def subsetsAndFish : List Strategy :=
  [.nakedSingles, .nakedPairs, .nakedTriples, .nakedQuads, .hiddenPairs, .hiddenTriples, .hiddenQuads, .xWing, .swordfish,
    .jellyfish]

private theorem sizes_check : claims (start ambiguous []) (fun y =>
    claims (result (.hiddenSingles :: subsetsAndFish) y.2.1) (fun r => !r.1 && decide (10 ≤ r.2.2.len))) = true := by
  decide +kernel

/-- C70: `solve` enters digits and gives up with all these strategies. -/
example : IsSolution ambiguous Ex.solved ∧ ∃ s r, Reaches false s ambiguous (fun _ _ => False) ∧
    s.solve 1000 (.hiddenSingles :: subsetsAndFish) = .ok (.error r) ∧ 10 ≤ r.2.len ∧
    ∀ st ∈ subsetStrategies ++ fishStrategies, Exhausted .hiddenSingles subsetsAndFish st := by
  have hg : WellFormed ambiguous := by decide +kernel
  obtain ⟨s, hs⟩ := C41_constructors.1 ambiguous hg
  obtain ⟨y, h1, h2⟩ := claims_spec sizes_check
  obtain ⟨⟨ok, r⟩, h3, h4⟩ := claims_spec h2
  unfold start at h1
  rw [hs] at h1
  cases h1
  simp only [Bool.and_eq_true, Bool.not_eq_true', decide_eq_true_eq] at h4
  obtain ⟨rfl, h6⟩ := h4
  refine ⟨by decide +kernel, s, r, .sudoku hg hs, result_err h3, h6, ?_⟩
  intro st hst
  simp only [subsetStrategies, fishStrategies, List.mem_append, List.mem_cons, List.not_mem_nil, or_false] at hst
  unfold Exhausted
  rcases hst with (rfl | rfl | rfl | rfl | rfl | rfl | rfl | rfl) | (rfl | rfl | rfl | rfl) <;> simp [subsetsAndFish]

end Verif.Props
