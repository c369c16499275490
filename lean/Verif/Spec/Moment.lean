import Verif.Spec.Remaining

/-!
# Specification: the candidates when a deduction is made
-/
namespace Verif.Strat

/-- The candidates that were left when `solve` made the deduction with number `i`: the cell is empty at the start, the
digit is not excluded at the start and not in the cell's row, column or block, and no deduction before excluded the
candidate, filled the cell or entered the digit in the cell's row, column or block. -/
def LeftBefore (g : Grid) (X : Fin 81 → Digit → Prop) (ds : Deductions) (i : Nat) (c : Fin 81) (d : Digit) : Prop :=
  g[c] = 0 ∧ ¬ X c d ∧ (∀ c' : Fin 81, SameHouse c' c → g[c'] ≠ d.get) ∧
  ∀ j < i, ∀ x, ds.get j = .ok (some x) → (⟨c, d⟩ : Candidate) ∉ Pattern.removed x ∧
    ∀ e, Pattern.entry x = some e → e.cell ≠ c ∧ ¬ (e.digit = d ∧ SameHouse e.cell c)

/-- The strategies of the list `first :: rest` that were tried without success before `st`, of which `pre` are the ones
in `rest` before `st`: those of `pre`; the first one if it is `HiddenSingles`, or if it is not `NakedSingles` and `st` is
not the second one. -/
def Tried (first : Strategy) (pre : List Strategy) (st : Strategy) : Prop :=
  st ∈ pre ∨ st = first ∧ (first = .hiddenSingles ∨ first ≠ .nakedSingles ∧ pre ≠ [])

end Verif.Strat
