import Verif.Proofs.PrintSolver
import Verif.Spec.Examples

/-!
# Properties of printing and reading candidates

The specification of the text is in `Spec/GridText.lean`.
-/
namespace Verif.Props

open Verif Verif.Strat Verif.GridText

variable {looked : Bool} {s : Solver} {g : Grid} {X : Fin 81 → Digit → Prop} {fuel : Nat}

/-! ## A cell -/

/-- **C54**: a cell is printed as its digit or its candidates in increasing order, an underscore if there are none, and
filled up to the requested width. -/
theorem C54_cell (st : CellState) (h : OnlyDigits st) (width : Option Nat) :
    st.display width = .ok (padded (width.getD 0) (entry (shown st))) := by
  refine CellState.display_eq ?_ width
  cases st with
  | digit => trivial
  | candidates cands => exact fun i hi => h i (Bitset.mem_elems.mpr hi)

/-- **C54**: cells with different candidates are printed differently. -/
theorem C54_distinct (a b : CellState) (ha : OnlyDigits a) (hb : OnlyDigits b) (h : a.display none = b.display none) :
    shown a = shown b := by
  rw [C54_cell a ha, C54_cell b hb] at h
  have h : padded 0 (entry (shown a)) = padded 0 (entry (shown b)) := by injection h
  unfold padded at h
  simp only [Nat.zero_sub, List.replicate_zero, List.append_nil] at h
  exact entry_inj h

/-! ## The table -/

/-- **C55**: printing a strategy solver does not panic, and the text is a table of candidates. -/
theorem C55_to_string (h : Reaches looked s g X) (hf : 1000 ≤ fuel) :
    ∃ state : Vector CellState 81, s.display fuel = .ok (table (entries state)) :=
  let ⟨state, _, hd, _⟩ := display_meaning h hf
  ⟨state, hd⟩

/-- **C55**: a table has thirteen lines of the same length. -/
theorem C55_lines (state : Vector CellState 81) : (Text.lines (table (entries state))).length = 13 ∧
    ∃ n, ∀ l ∈ Text.lines (table (entries state)), l.length = n := by
  rw [lines_table (e := entries state) (fun r c => entry_word _)]
  exact ⟨rfl, _, fun l hl => length_tableLines hl⟩

/-- **C55**: the words of a table that are entries of cells are those of the cells in reading order. -/
theorem C55_entries (state : Vector CellState 81) : (words (table (entries state))).filter isEntry =
    (List.finRange 81).map (fun c => entry (shown state[c])) :=
  (entries_isEntry state).trans (rowMajor_eq state)

/-! ## Which candidates are printed -/

/-- **C56**: the table shows for every cell the digits that are not ruled out by elimination, as long as `cell_state` was
not called. -/
theorem C56_shown_partial (h : Reaches false s g X) (hs : ∃ t, SolutionOf g X t) (hf : 1000 ≤ fuel) :
    ∃ state : Vector CellState 81, s.display fuel = .ok (table (entries state)) ∧
      ∀ c d, d ∈ shown state[c] ↔ ¬ Ruled g X c d := by
  obtain ⟨state, _, hd, D, E, hm⟩ := display_meaning h hf
  obtain ⟨t, ht⟩ := hs
  obtain ⟨m, hn⟩ := hm t ht
  refine ⟨state, hd, fun c d => ⟨fun hc hr => m.not_shown (hn rfl) hr hc, fun hr => ?_⟩⟩
  by_contra hc
  exact hr (m.ruled hc)

/-- **C56**: in any case the table shows the digits that are not ruled out, it does not show digits that were excluded or
are different from a given one, and it shows the digits of every solution. -/
theorem C56_at_least (h : Reaches looked s g X) (hs : ∃ t, SolutionOf g X t) (hf : 1000 ≤ fuel) :
    ∃ state : Vector CellState 81, s.display fuel = .ok (table (entries state)) ∧
      (∀ c d, ¬ Ruled g X c d → d ∈ shown state[c]) ∧
      (∀ c d, d ∈ shown state[c] → ¬ X c d ∧ (g[c] ≠ 0 → g[c] = d.get)) ∧
      ∀ t, SolutionOf g X t → ∀ (c : Fin 81) (d : Digit), t[c] = d.get → d ∈ shown state[c] := by
  obtain ⟨state, _, hd, D, E, hm⟩ := display_meaning h hf
  obtain ⟨t, ht⟩ := hs
  obtain ⟨m, -⟩ := hm t ht
  refine ⟨state, hd, fun c d hr => ?_, fun c d hc => ⟨m.not_excluded hc, m.only_given hc⟩,
    fun t' ht' c d hc => (hm t' ht').1.shows_sol hc⟩
  by_contra hc
  exact hr (m.ruled hc)

/-! ## Reading it back -/

/-- **C57**: the text can be read back: the solver that is made from it has the same solutions. -/
theorem C57_read_back (h : Reaches looked s g X) (hs : ∃ t, SolutionOf g X t) (hf : 1000 ≤ fuel) :
    ∃ text s' g' X', s.display fuel = .ok text ∧ Solver.fromGridStateStr text = .ok s' ∧ Reaches false s' g' X' ∧
      (∀ t, SolutionOf g' X' t ↔ SolutionOf g X t) ∧ (looked = false → s'.display fuel = .ok text) := by
  obtain ⟨state, hfit, hd, D, E, hm⟩ := display_meaning h hf
  obtain ⟨t, ht⟩ := hs
  obtain ⟨m, hn⟩ := hm t ht
  obtain ⟨s', e1, -⟩ := fromGridState_spec (state.map CellState.read)
  have hr := Reaches.gridState e1
  have key : ∀ c d, d ∈ shown state[c] ↔ ¬ excludedBy (state.map CellState.read) c d ∧
      ((digitsOf (state.map CellState.read))[c] ≠ 0 → (digitsOf (state.map CellState.read))[c] = d.get) := by
    intro c d
    rw [← mem_shown_iff, getElem_read, shown_read]
  have sols : ∀ t, SolutionOf (digitsOf (state.map CellState.read)) (excludedBy (state.map CellState.read)) t ↔
      SolutionOf g X t := by
    intro t'
    constructor
    · rintro ⟨⟨h1, h2⟩, h3⟩
      have hin : ∀ (c : Fin 81) (d : Digit), t'[c] = d.get → d ∈ shown state[c] := by
        intro c d hcd
        rw [key]
        exact ⟨fun hx => h3 c d hx hcd, fun h0 => by rw [← h2 c h0]; exact hcd⟩
      refine ⟨⟨h1, fun c h0 => ?_⟩, fun c d hx hcd => m.not_excluded (hin c d hcd) hx⟩
      have hc := dig_spec h1 c
      rw [m.only_given (hin c _ hc) h0]
      exact hc
    · intro h1
      have hin : ∀ (c : Fin 81) (d : Digit), t'[c] = d.get → d ∈ shown state[c] := fun c d hcd => (hm t' h1).1.shows_sol hcd
      refine ⟨⟨h1.1.1, fun c h0 => ?_⟩, fun c d hx hcd => ((key c d).mp (hin c d hcd)).1 hx⟩
      have hc := dig_spec h1.1.1 c
      rw [((key c _).mp (hin c _ hc)).2 h0]
      exact hc
  refine ⟨_, s', _, _, hd, (fromGridStateStr_table hfit).trans e1, hr, sols, ?_⟩
  rintro rfl
  obtain ⟨state', hd', hs'⟩ := C56_shown_partial hr ⟨t, (sols t).mpr ht⟩ hf
  have same : ∀ c d, Ruled (digitsOf (state.map CellState.read)) (excludedBy (state.map CellState.read)) c d ↔
      Ruled g X c d := by
    intro c d
    constructor
    · intro h1
      induction h1 with
      | @excluded c d hx => exact m.ruled (fun hc => ((key c d).mp hc).1 hx)
      | @given c d h0 hne => exact m.ruled (fun hc => hne (((key c d).mp hc).2 h0))
      | house hne hsh _ ih => exact .house hne hsh ih
    · intro h1
      have h2 := m.not_shown (hn rfl) h1
      rw [key] at h2
      by_cases hx : excludedBy (state.map CellState.read) c d
      · exact .excluded hx
      · by_cases h0 : (digitsOf (state.map CellState.read))[c] = 0
        · exact absurd ⟨hx, fun h => absurd h0 h⟩ h2
        · exact .given h0 (fun hh => h2 ⟨hx, fun _ => hh⟩)
  rw [hd']
  refine congrArg (fun e => Res.ok (table e)) ?_
  funext row col
  refine congrArg entry (shown_ext (fun d => ?_))
  have h1 := hs' ⟨9 * row.val + col.val, by omega⟩ d
  rw [same] at h1
  refine h1.trans ⟨fun hr => ?_, fun hc hr => m.not_shown (hn rfl) hr hc⟩
  by_contra hc
  exact hr (m.ruled hc)

end Verif.Props
