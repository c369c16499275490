import Verif.Props.Print
import Verif.Props.StrategyNews

/-!
# Printing and reading candidates: cases that meet the hypotheses, and one where a claim is false

`StrategyNews` is imported so that the files that need much memory are not checked at the same time.
-/
namespace Verif.Props

open Verif Verif.Strat Verif.GridText

set_option maxRecDepth 100000

/-! ## A cell -/

example : OnlyDigits (.candidates 0b100010010#16) ∧ OnlyDigits (.candidates 0#16) := by
  constructor <;> intro i hi <;> revert hi <;> rw [Bitset.mem_elems] <;> intro hi <;> by_contra h9
  · have : ∀ i < 16, 9 ≤ i → (0b100010010#16).getLsbD i = false := by decide
    rw [this i (BitVec.lt_of_getLsbD hi) (by omega)] at hi
    cases hi
  · simp at hi

example : (CellState.candidates 0b100010010#16).display (some 5) = .ok "259  ".toList ∧
    (CellState.candidates 0#16).display none = .ok "_".toList ∧ (CellState.digit 6).display (some 2) = .ok "7 ".toList := by
  decide +kernel

/-! ## A table -/

/-- A grid state in which the first cell has a single candidate, and the others have all. -/
def oneLeft : Vector CellState 81 :=
  Vector.ofFn (fun i : Fin 81 => .candidates (if i = 0 then 0b000001000#16 else 0b111111111#16))

/-- What is left in the cells of a row, a column or a block with it, and in the other cells. -/
def oneLeftTexts (c : Fin 81) : List Char :=
  if c = 0 then "4".toList else if decide (SameHouse c 0) then "12356789".toList else "123456789".toList

/-- The texts of the cells that are printed after some calls. -/
def printedTexts (calls : List Call) (p : Bool → Grid → List (List Char) → Bool) : Bool :=
  claims (startState oneLeft calls) (fun y => match y.2.1.display 1000 with
    | .ok text => p y.1 y.2.2 ((words text).filter isEntry)
    | _ => false)

private theorem printedTexts_spec {calls : List Call} {p : Bool → Grid → List (List Char) → Bool} (h : printedTexts calls p = true) :
    ∃ b s g text, Reaches b s g (excludedBy oneLeft) ∧ s.display 1000 = .ok text ∧ 
      p b g ((words text).filter isEntry) = true := by
  obtain ⟨⟨b, s, g⟩, h1, h2⟩ := claims_spec h
  have h3 := startState_reaches h1
  dsimp only at h2
  split at h2
  · rename_i text e
    exact ⟨b, s, g, text, h3, e, h2⟩
  · cases h2

theorem oneLeft_excluded (c : Fin 81) (d : Digit) : excludedBy oneLeft c d ↔ c = 0 ∧ d ≠ 3 := by
  have e : oneLeft[c] = .candidates (if c = 0 then 0b000001000#16 else 0b111111111#16) := by
    show (Vector.ofFn _)[c.val] = _
    rw [Vector.getElem_ofFn]
  unfold excludedBy
  rw [e]
  show d.val ∉ elems _ ↔ _
  rw [Bitset.mem_elems]
  revert c d
  decide +kernel

private theorem solution {g : Grid} (h : g = Ex.empty) : SolutionOf g (excludedBy oneLeft) Ex.solved := by
  subst h
  refine ⟨by decide +kernel, fun c d hx => ?_⟩
  rw [oneLeft_excluded] at hx
  revert c d
  decide +kernel

/-- The hypotheses of C55, C56 and C57 are met, and what is printed is not trivial. -/
example : ∃ s g X text, Reaches false s g X ∧ (∃ t, SolutionOf g X t) ∧ s.display 1000 = .ok text ∧
    (words text).filter isEntry = (List.finRange 81).map oneLeftTexts := by
  obtain ⟨b, s, g, text, h1, h2, h3⟩ := printedTexts_spec (calls := [])
    (p := fun b g l => !b && decide (g = Ex.empty) && l == (List.finRange 81).map oneLeftTexts) (by decide +kernel)
  simp only [Bool.and_eq_true, Bool.not_eq_true', decide_eq_true_eq, beq_iff_eq] at h3
  obtain ⟨⟨rfl, h4⟩, h5⟩ := h3
  exact ⟨s, g, _, text, h1, ⟨_, solution h4⟩, h2, h5⟩

/-- **C56** is false after `cell_state` was called: digits that are ruled out can be shown. -/
theorem C56_looked_false : ∃ s g X, Reaches true s g X ∧ (∃ t, SolutionOf g X t) ∧
    ∀ state, s.display 1000 = .ok (table (entries state)) → ∃ c d, d ∈ shown state[c] ∧ Ruled g X c d := by
  obtain ⟨b, s, g, text, h1, h2, h3⟩ := printedTexts_spec (calls := [.look 0])
    (p := fun b g l => b && decide (g = Ex.empty) && l[1]? == some (entry (List.finRange 9))) (by decide +kernel)
  simp only [Bool.and_eq_true, decide_eq_true_eq, beq_iff_eq] at h3
  obtain ⟨⟨rfl, h4⟩, h5⟩ := h3
  refine ⟨s, g, _, h1, ⟨_, solution h4⟩, fun state hs => ⟨1, 3, ?_, ?_⟩⟩
  · rw [h2] at hs
    injection hs with hs
    have e : (List.finRange 81)[1]? = some 1 := by decide +kernel
    rw [hs, C55_entries, List.getElem?_map, e] at h5
    have h6 : shown state[(1 : Fin 81)] = List.finRange 9 := entry_inj (Option.some.inj h5)
    rw [h6]
    exact List.mem_finRange _
  · exact .house (c' := 0) (by decide) (by decide) (fun d' hd => .excluded ((oneLeft_excluded 0 d').mpr ⟨rfl, hd⟩))

end Verif.Props
