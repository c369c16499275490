import Verif.Spec.Singles
import Verif.Proofs.StratLost
import Verif.Props.StrategyComplete
import Verif.Props.PrintExamples

/-!
# Properties of the strategy solver: `is_solved`, and what naked and hidden singles reach
-/
namespace Verif.Props

open Verif Verif.Strat

variable {looked : Bool} {s : Solver} {g : Grid} {X : Fin 81 → Digit → Prop} {fuel : Nat}

theorem houseNr_lt (h : Pos.HouseType) : Pattern.houseNr h < 27 := by
  cases h <;> simp only [Pattern.houseNr] <;> omega

theorem houseNr_surj {n : Nat} (hn : n < 27) : ∃ h, Pattern.houseNr h = n := by
  by_cases h1 : n < 9
  · exact ⟨.row ⟨n, h1⟩, rfl⟩
  · by_cases h2 : n < 18
    · exact ⟨.col ⟨n - 9, by omega⟩, by simp only [Pattern.houseNr]; omega⟩
    · exact ⟨.block ⟨n - 18, by omega⟩, by simp only [Pattern.houseNr]; omega⟩

/-! ## `is_solved` -/

/-- **C58**: if `is_solved` returns `true`, the entered digits are a complete and correct grid, whatever was called before
and even if the entries contradicted each other. -/
theorem C58_is_solved (h : Reaches looked s g X) (hs : s.isSolved = true) : Solved g := by
  obtain ⟨gh, hsem⟩ : ∃ gh, Sem s gh := h.lost.resolve_right fun hl => by
    rw [hl.notSolved] at hs
    cases hs
  have h81 : clueCount gh = 81 := by
    rw [← hsem.gh.count]
    unfold Solver.isSolved at hs
    exact eq_of_beq hs
  have hfull : ∀ c : Fin 81, gh[c] ≠ 0 := fun c => Generator.clueCount_full h81 c
  have heq : ∀ c : Fin 81, ∃ d : Digit, gh[c] = d.get ∧ g[c] = d.get := by
    intro c
    obtain ⟨d, hd⟩ := hsem.gh.range c (hfull c)
    exact ⟨d, hd, (h.inv.1.ded c d).mp (List.mem_of_mem_take (hsem.gh.src c d hd))⟩
  have : gh = g := by
    refine Vector.ext fun i hi => ?_
    obtain ⟨d, h1, h2⟩ := heq ⟨i, hi⟩
    exact h1.trans h2.symm
  subst this
  refine ⟨fun c => ?_, fun c c' hne hsame => hsem.gh.distinct c c' hne hsame (hfull c)⟩
  obtain ⟨d, h1, -⟩ := heq c
  have := Digit.get_toNat d
  have := d.isLt
  rw [h1]
  constructor <;> rw [UInt8.le_iff_toNat_le] <;> simp <;> omega

/-- **C58**: after a look at a cell, `is_solved` tells whether the entered digits are a complete and correct grid, if no
excluded digit was entered. -/
theorem C58_looked (h : Reaches looked s g X) (hx : ∀ (c : Fin 81) (d : Digit), g[c] = d.get → ¬ X c d)
    (hf : 1000 ≤ fuel) (c : Fin 81) :
    ∃ s' r, s.cellState fuel c = .ok (s', r) ∧ (s'.isSolved = true ↔ Solved g) := by
  obtain ⟨s', r, h1, -, h3, -, -, h6⟩ := cellState_ok h.inv.1 hf c
  have h' : Reaches true s' g X := .cellState h hf h1
  refine ⟨s', r, h1, fun hs => C58_is_solved h' hs, fun hs => ?_⟩
  have hne : ∀ c : Fin 81, g[c] ≠ 0 := by
    intro c h0
    have := (hs.1 c).1
    rw [h0] at this
    exact absurd this (by decide)
  have hc : Consistent g X :=
    ⟨fun c c' h1 h2 _ => hs.2 c c' h1 h2, hx, fun c h0 => absurd h0 (hne c)⟩
  obtain ⟨gh, hsem⟩ := h.inv.2 (Or.inr hc)
  obtain ⟨gh', hset⟩ := h6 hc gh hsem
  obtain ⟨t, ht⟩ := h3.cons hc
  have hfull : ∀ c : Fin 81, gh'[c] ≠ 0 := by
    intro c
    obtain ⟨d, hd⟩ := h3.wf c (hne c)
    exact hset.gh.filledC ht (hset.closed' ((h3.ded c d).mpr hd))
  unfold Solver.isSolved
  have h81 : clueCount gh' = 81 := by
    unfold clueCount
    rw [(List.countP_eq_length (p := fun c : Fin 81 => decide (gh'[c] ≠ 0)) (l := List.finRange 81)).mpr
      (fun c _ => decide_eq_true (hfull c))]
    simp
  rw [hset.gh.count, h81]
  rfl

/-- The converse of `C58_is_solved` is false: a solver that was just made from a sudoku is never solved, not even
if all cells are filled. -/
theorem C58_new_false (g : Grid) (s : Solver) (hs : Solver.fromSudoku g = .ok s) : s.isSolved = false := by
  unfold Solver.fromSudoku at hs
  obtain ⟨l, -, h2⟩ := bind_ok hs
  cases h2
  rfl

/-! ## Singles -/

/-- What follows by singles holds in every solution. -/
theorem follows_sound {t : Grid} (ht : SolutionOf g X t) {b : Bool} {c : Fin 81} {d : Digit} (h : Follows g X b c d) :
    if b then t[c] = d.get else t[c] ≠ d.get := by
  induction h with
  | @given c d hg =>
    show t[c] = d.get
    rw [ht.1.2 c (by rw [hg]; exact Digit.get_ne_zero d), hg]
  | @naked c d _ ih =>
    show t[c] = d.get
    have h1 := dig_spec ht.1.1 c
    by_contra hne
    exact ih _ (fun he => hne (he ▸ h1)) h1
  | @hidden h c d hh hin _ ih =>
    show t[c] = d.get
    obtain ⟨p, hp⟩ := exists_pos ht.1.1 ⟨h, hh⟩ d
    have hin' : Pattern.InHouse h (Pos.houseCellAt ⟨h, hh⟩ p) := (hca_inHouse ⟨h, hh⟩ p).1
    by_contra hne
    exact ih _ hin' (fun he => hne (he ▸ hp)) hp
  | @excluded c d hx => exact ht.2 c d hx
  | @filled c d d' _ hne ih => exact fun h1 => hne (Digit.get_inj (Eq.trans (Eq.symm ih) h1))
  | @house c c' d _ hne hs ih => exact fun h1 => ht.1.1.2 c' c hne hs (Eq.trans ih (Eq.symm h1))

/-- Every entry of a deduction by singles follows by singles. -/
theorem follows_entry (h : Reaches looked s g X) (hf : 1000 ≤ fuel) (sts : List Strategy)
    (hsts : ∀ st ∈ sts, st = .nakedSingles ∨ st = .hiddenSingles) (r : Grid × Deductions)
    (hr : Returned fuel sts s r) (t : Grid) (ht : SolutionOf g X t) (i : Nat) : ∀ x e, r.2.get i = .ok (some x) →
    Pattern.entry x = some e → Follows g X true e.cell e.digit := by
  induction i using Nat.strong_induction_on with
  | _ i ih =>
    intro x e hx he
    obtain ⟨st, hst, -, E, R, hE, hR, hm⟩ := C47_explained h hf sts r hr t ht i x hx
    have hE' : ∀ e ∈ E, Follows g X true e.cell e.digit := by
      intro e he
      rcases hE e he with h1 | ⟨j, hj, x', h1, h2⟩
      · exact .given h1
      · exact ih j hj x' e h1 h2
    have hR' : ∀ e ∈ R, X e.cell e.digit := by
      intro e he
      rcases hR e he with h1 | ⟨j, hj, x', h1, h2⟩
      · exact h1
      · obtain ⟨st', hst', -, E', R', -, -, hm'⟩ := C47_explained h hf sts r hr t ht j x' h1
        rcases hsts st' hst' with rfl | rfl
        · cases x' <;> first | exact hm'.elim | exact absurd h2 (List.not_mem_nil)
        · cases x' <;> first | exact hm'.elim | exact absurd h2 (List.not_mem_nil)
    have out : ∀ c d, ¬ Pattern.after E R c d → X c d ∨ ∃ e ∈ E, e.cell = c ∨ SameHouse e.cell c ∧ e.digit = d := by
      intro c d hn
      by_contra hcon
      push Not at hcon
      refine hn ⟨fun hm => hcon.1 (hR' _ hm), fun e he => ⟨(hcon.2 e he).1, fun h1 => (hcon.2 e he).2 h1.1 h1.2⟩⟩
    rcases hsts st hst with rfl | rfl
    · cases x <;> try exact hm.elim
      rename_i e'
      cases he
      have hm : Pattern.NakedSingle (Pattern.after E R) e := hm
      have hin := (hm e.digit).mpr rfl
      refine .naked fun d' hd' => ?_
      rcases out e.cell d' (fun h1 => hd' ((hm d').mp h1)) with h1 | ⟨e', he', h1 | ⟨h1, rfl⟩⟩
      · exact .excluded h1
      · exact absurd h1 (hin.2 e' he').1
      · exact .house (hE' e' he') (hin.2 e' he').1 h1
    · cases x <;> try exact hm.elim
      rename_i e' hh
      cases he
      have hm : Pattern.HiddenSingle (Pattern.after E R) e (Pattern.houseNr hh) := hm
      obtain ⟨hin, hm⟩ := hm
      have hcand := (hm e.cell hin).mpr rfl
      refine .hidden (houseNr_lt hh) hin fun c' hc' hne => ?_
      rcases out c' e.digit (fun h1 => hne ((hm c' hc').mp h1)) with h1 | ⟨e', he', h1⟩
      · exact .excluded h1
      · by_cases hcell : e'.cell = c'
        · refine .filled (hcell ▸ hE' e' he') fun hd => (hcand.2 e' he').2 ⟨?_, hd⟩
          rw [hcell]
          exact hc'.same hin
        · rcases h1 with h1 | ⟨h1, h2⟩
          · exact absurd h1 hcell
          · exact .house (h2 ▸ hE' e' he') hcell h1

/-- **C59**: with the strategies `NakedSingles` and `HiddenSingles`, in an order and number in which both are tried until
they find nothing (`NakedSingles` is not only the first one), `solve` enters exactly the digits that follow by singles
from the given digits and exclusions.  The sudoku has a solution. -/
theorem C59_singles (h : Reaches looked s g X) (hf : 1000 ≤ fuel) (first : Strategy) (rest : List Strategy)
    (hsts : ∀ st ∈ first :: rest, st = .nakedSingles ∨ st = .hiddenSingles) (hn : .nakedSingles ∈ rest)
    (hh : .hiddenSingles ∈ first :: rest) (r : Grid × Deductions) (hr : Returned fuel (first :: rest) s r) (t : Grid)
    (ht : SolutionOf g X t) (c : Fin 81) (d : Digit) : r.1[c] = d.get ↔ Follows g X true c d := by
  have hcons := Consistent.of_solution ht
  obtain ⟨a1, -, -⟩ := C48_accounted h (Or.inr hcons) hf _ r hr
  obtain ⟨b1, -⟩ := C48_entered h hf _ r hr t ht
  obtain ⟨s1, s2⟩ := C39_sound h hf _ r hr t ht
  constructor
  · intro hc
    obtain ⟨d', h1, h2⟩ := a1 c (by rw [hc]; exact Digit.get_ne_zero d)
    obtain rfl := Digit.get_inj (hc.symm.trans h1)
    rcases h2 with h2 | ⟨i, x, h2, h3⟩
    · exact .given h2
    · exact follows_entry h hf _ hsts r hr t ht i x _ h2 h3
  · intro hfol
    rcases hr with hr | hr
    · obtain ⟨-, h1⟩ := C49_solved_partial h (Or.inr hcons)
        (fun c d hg hx => ht.2 c d hx (by rw [ht.1.2 c (by rw [hg]; exact Digit.get_ne_zero d), hg])) hf _ r hr
      rw [← h1 t ht]
      exact follows_sound ht hfol
    · have hne : ∀ x, ¬ Pattern.Matches (Left r X) .nakedSingles x := fun x hx =>
        C50_nothing_left_partial h hf first rest r hr t ht .nakedSingles (Or.inl hn)
          (fun _ h1 => absurd h1 List.not_mem_nil) x hx
      have hhe : ∀ x, ¬ Pattern.Matches (Left r X) .hiddenSingles x := by
        refine fun x hx => C50_nothing_left_partial h hf first rest r hr t ht .hiddenSingles ?_
          (fun _ h1 => absurd h1 List.not_mem_nil) x hx
        rcases List.mem_cons.mp hh with h1 | h1
        · exact Or.inr ⟨h1, by rw [← h1]; decide, Or.inr h1.symm⟩
        · exact Or.inl h1
      have left : ∀ (c : Fin 81) (d : Digit), t[c] = d.get → r.1[c] = 0 → Left r X c d := by
        intro c d htc h0
        refine ⟨h0, fun hx => ht.2 c d hx htc, fun c' hs hc' => ?_, fun i x hx hm => (s2 i x hx).2 _ hm htc⟩
        have hne0 : r.1[c'] ≠ 0 := by rw [hc']; exact Digit.get_ne_zero d
        have h1 := (s1 c').resolve_left hne0
        by_cases hcc : c' = c
        · subst hcc; exact hne0 h0
        · exact ht.1.1.2 c' c hcc hs (by rw [← h1, hc', htc])
      have key : ∀ {b : Bool} {c : Fin 81} {d : Digit}, Follows g X b c d →
          if b then r.1[c] = d.get else ¬ Left r X c d := by
        intro b c d hfol
        induction hfol with
        | @given c d hg =>
          show r.1[c] = d.get
          rw [b1 c (by rw [hg]; exact Digit.get_ne_zero d), hg]
        | @naked c d hp ih =>
          show r.1[c] = d.get
          have htc : t[c] = d.get := follows_sound ht (.naked hp)
          rcases s1 c with h0 | h0
          · refine absurd (show Pattern.NakedSingle (Left r X) ⟨c, d⟩ from fun d' => ⟨fun h1 => ?_, ?_⟩)
              (hne (.nakedSingles ⟨c, d⟩))
            · by_contra hd
              exact ih d' hd h1
            · rintro rfl
              exact left c _ htc h0
          · rw [h0, htc]
        | @hidden h' c d hlt hin hp ih =>
          show r.1[c] = d.get
          have htc : t[c] = d.get := follows_sound ht (.hidden hlt hin hp)
          rcases s1 c with h0 | h0
          · obtain ⟨ty, rfl⟩ := houseNr_surj hlt
            refine absurd (show Pattern.HiddenSingle (Left r X) ⟨c, d⟩ (Pattern.houseNr ty) from
              ⟨hin, fun c' hc' => ⟨fun h1 => ?_, ?_⟩⟩) (hhe (.hiddenSingles ⟨c, d⟩ ty))
            · by_contra hd
              exact ih c' hc' hd h1
            · rintro rfl
              exact left _ d htc h0
          · rw [h0, htc]
        | @excluded c d hx => exact fun h1 => h1.2.1 hx
        | @filled c d d' _ _ ih => exact fun h1 => Digit.get_ne_zero d' (Eq.trans (Eq.symm ih) h1.1)
        | @house c c' d _ _ hs ih => exact fun h1 => h1.2.2.1 c' hs ih
      exact key hfol

/-- More digits given or excluded let at least as much follow. -/
theorem follows_mono {g' : Grid} {X' : Fin 81 → Digit → Prop} (hg : ∀ c : Fin 81, g[c] ≠ 0 → g'[c] = g[c])
    (hX : ∀ c d, X c d → X' c d) {b : Bool} {c : Fin 81} {d : Digit} (h : Follows g X b c d) : Follows g' X' b c d := by
  induction h with
  | @given c d h1 => exact .given (by rw [hg c (by rw [h1]; exact Digit.get_ne_zero d), h1])
  | naked _ ih => exact .naked ih
  | hidden h1 h2 _ ih => exact .hidden h1 h2 ih
  | excluded h1 => exact .excluded (hX _ _ h1)
  | filled _ h1 ih => exact .filled ih h1
  | house _ h1 h2 ih => exact .house ih h1 h2

/-- **C59**: it does not matter in which order and how often the two strategies are listed, and more clues or exclusions
never make `solve` enter less: every digit it enters in one solver, it enters in every solver with the same clues and
exclusions and possibly more. -/
theorem C59_more {looked' : Bool} {s' : Solver} {g' : Grid} {X' : Fin 81 → Digit → Prop} {fuel' : Nat}
    (h : Reaches looked s g X) (h' : Reaches looked' s' g' X') (hf : 1000 ≤ fuel) (hf' : 1000 ≤ fuel')
    (hg : ∀ c : Fin 81, g[c] ≠ 0 → g'[c] = g[c]) (hX : ∀ c d, X c d → X' c d)
    (sts : List Strategy) (hsts : ∀ st ∈ sts, st = .nakedSingles ∨ st = .hiddenSingles) (first : Strategy)
    (rest : List Strategy) (hsts' : ∀ st ∈ first :: rest, st = .nakedSingles ∨ st = .hiddenSingles)
    (hn : .nakedSingles ∈ rest) (hh : .hiddenSingles ∈ first :: rest) (r r' : Grid × Deductions)
    (hr : Returned fuel sts s r) (hr' : Returned fuel' (first :: rest) s' r') (t : Grid) (ht : SolutionOf g' X' t)
    (c : Fin 81) (hc : r.1[c] ≠ 0) : r'.1[c] = r.1[c] := by
  have ht0 : SolutionOf g X t := by
    refine ⟨⟨ht.1.1, fun c h0 => ?_⟩, fun c d hx => ht.2 c d (hX c d hx)⟩
    rw [← hg c h0]
    exact ht.1.2 c (by rw [hg c h0]; exact h0)
  obtain ⟨a1, -, -⟩ := C48_accounted h (Or.inr (Consistent.of_solution ht0)) hf _ r hr
  obtain ⟨d, h1, h2⟩ := a1 c hc
  rw [h1]
  refine (C59_singles h' hf' first rest hsts' hn hh r' hr' t ht c d).mpr (follows_mono hg hX ?_)
  rcases h2 with h2 | ⟨i, x, h2, h3⟩
  · exact .given h2
  · exact follows_entry h hf _ hsts r hr t ht0 i x _ h2 h3

/-! ## Cases that meet the hypotheses -/

/-- C58: a solver for a solved sudoku is not solved at first, but is after a look at a cell. -/
example : ∃ s s' r, Reaches false s Ex.solved (fun _ _ => False) ∧ s.isSolved = false ∧
    s.cellState 1000 0 = .ok (s', r) ∧ Reaches true s' Ex.solved (fun _ _ => False) ∧ s'.isSolved = true ∧
    Consistent Ex.solved (fun _ _ => False) := by
  have hg : WellFormed Ex.solved := by decide +kernel
  have hc : Consistent Ex.solved (fun _ _ => False) :=
    Consistent.of_solution (t := Ex.solved) ⟨by decide +kernel, fun _ _ h => h.elim⟩
  obtain ⟨s, hs⟩ := C41_constructors.1 Ex.solved hg
  obtain ⟨s', r, h1, h2⟩ := C58_looked (.sudoku hg hs) (fun _ _ _ h => h) (Nat.le_refl 1000) 0
  exact ⟨s, s', r, .sudoku hg hs, C58_new_false _ _ hs, h1, .cellState (.sudoku hg hs) (Nat.le_refl _) h1,
    h2.mpr (by decide +kernel), hc⟩

/-- The other solution of `ambiguous`. -/
def otherSolution : Grid := Ex.solved.map (fun n => if n = 1 then 2 else if n = 2 then 1 else n)

/-- C59: in `ambiguous` a hidden single is entered, and the cells that differ between its solutions stay empty. -/
example : IsSolution ambiguous Ex.solved ∧ ambiguous[(6 : Fin 81)] = 0 ∧
    Follows ambiguous (fun _ _ => False) true 6 5 ∧ (∀ d, ¬ Follows ambiguous (fun _ _ => False) true 4 d) ∧
    ∃ s r, Reaches false s ambiguous (fun _ _ => False) ∧ Returned 1000 [.hiddenSingles, .nakedSingles] s r ∧
      r.1[(6 : Fin 81)] = 6 ∧ r.1[(4 : Fin 81)] = 0 := by
  have hg : WellFormed ambiguous := by decide +kernel
  have ht : SolutionOf ambiguous (fun _ _ => False) Ex.solved := ⟨by decide +kernel, fun _ _ h => h.elim⟩
  have ht' : SolutionOf ambiguous (fun _ _ => False) otherSolution := ⟨by decide +kernel, fun _ _ h => h.elim⟩
  obtain ⟨s, hs⟩ := C41_constructors.1 ambiguous hg
  obtain ⟨r, hr⟩ := C41_solve (.sudoku hg hs) (Nat.le_refl 1000) [.hiddenSingles, .nakedSingles] (by decide)
  have iff := fun c d => C59_singles (.sudoku hg hs) (Nat.le_refl 1000) .hiddenSingles [.nakedSingles] (by decide)
    (by decide) (by decide) r hr Ex.solved ht c d
  have h6 : Follows ambiguous (fun _ _ => False) true 6 5 := by
    refine .hidden (h := 0) (by decide) (by decide) fun c' hc' hne => ?_
    have key : ∀ c' : Fin 81, Pattern.InHouse 0 c' → c' ≠ 6 →
        (∃ d' : Digit, ambiguous[c'] = d'.get ∧ d' ≠ 5) ∨
        ∃ c : Fin 81, ambiguous[c] = Digit.get 5 ∧ c ≠ c' ∧ SameHouse c c' := by decide +kernel
    rcases key c' hc' hne with ⟨d', h1, h2⟩ | ⟨c, h1, h2, h3⟩
    · exact .filled (.given h1) h2
    · exact .house (.given h1) h2 h3
  have h4 : ∀ d, ¬ Follows ambiguous (fun _ _ => False) true 4 d := by
    intro d hd
    have h1 : Ex.solved[(4 : Fin 81)] = d.get := follows_sound ht hd
    have h2 : otherSolution[(4 : Fin 81)] = d.get := follows_sound ht' hd
    exact absurd (h1.trans h2.symm) (by decide +kernel)
  refine ⟨ht.1, by decide +kernel, h6, h4, s, r, .sudoku hg hs, hr, (iff 6 5).mpr h6, ?_⟩
  by_contra h0
  obtain ⟨a1, -, -⟩ := C48_accounted (.sudoku hg hs) (Or.inl rfl) (Nat.le_refl 1000) _ r hr
  obtain ⟨d, h1, -⟩ := a1 4 h0
  exact h4 d ((iff 4 d).mp h1)

end Verif.Props
