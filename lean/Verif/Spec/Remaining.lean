import Verif.Spec.Patterns
import Verif.Spec.History

/-!
# Specification: what is left when `solve` gives up
-/
namespace Verif.Strat

/-- The candidates left by the result of `solve`: the cell is empty, the digit was not excluded at the start or by a
deduction, and it is not in the cell's row, column or block. -/
def Left (r : Grid × Deductions) (X : Fin 81 → Digit → Prop) (c : Fin 81) (d : Digit) : Prop :=
  r.1[c] = 0 ∧ ¬ X c d ∧ (∀ c' : Fin 81, SameHouse c' c → r.1[c'] ≠ d.get) ∧
  ∀ i x, r.2.get i = .ok (some x) → (⟨c, d⟩ : Candidate) ∉ Pattern.removed x

/-- The patterns that the strategies look for.  A line of a fish has at least two candidates (a line with one candidate is
a hidden single), and the pincers of a wing do not see each other (otherwise they are, with the hinge, a naked subset or
in two houses with it). -/
def Searched (cand : Fin 81 → Digit → Prop) : Deduction (List Candidate) → Prop
  | .basicFish digit lines _ _ => ∀ l, Pattern.Has lines l → ∃ c c', c ≠ c' ∧ Pattern.InHouse l c ∧ Pattern.InHouse l c' ∧
      cand c digit ∧ cand c' digit
  | .wing _ _ pincers _ => ∀ c c' : Fin 81, Pattern.Has pincers c → Pattern.Has pincers c' → ¬ Pattern.Sees c c'
  | _ => True

/-- The strategies of the list `first :: rest` that must have nothing to find when `solve` gives up: all but the first one,
and the first one unless it is `NakedSingles` or alone and excludes candidates. -/
def Exhausted (first : Strategy) (rest : List Strategy) (st : Strategy) : Prop :=
  st ∈ rest ∨ st = first ∧ first ≠ .nakedSingles ∧ (rest ≠ [] ∨ first = .hiddenSingles)

/-- The strategies that find the patterns that a strategy does not search for. -/
def helpers : Strategy → List Strategy
  | .xWing | .swordfish | .jellyfish => [.hiddenSingles]
  | .xyWing => [.nakedTriples, .lockedCandidates]
  | .xyzWing => [.nakedTriples]
  | _ => []

end Verif.Strat
