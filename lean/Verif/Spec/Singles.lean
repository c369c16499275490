import Verif.Spec.History
import Verif.Spec.Patterns

/-!
# Specification: what follows by singles
-/
namespace Verif.Strat

open Verif

/-- `Follows g X true c d`: the digit `d` follows for the cell `c` from the given digits `g` and the excluded ones `X` by
naked and hidden singles.  `Follows g X false c d`: `d` is ruled out in `c`. -/
inductive Follows (g : Grid) (X : Fin 81 → Digit → Prop) : Bool → Fin 81 → Digit → Prop
  /-- The digit was given. -/
  | given {c : Fin 81} {d : Digit} : g[c] = d.get → Follows g X true c d
  /-- It is the only digit left in its cell. -/
  | naked {c : Fin 81} {d : Digit} : (∀ d' : Digit, d' ≠ d → Follows g X false c d') → Follows g X true c d
  /-- Its cell is the only one left for it in a row, column or block. -/
  | hidden {h : Nat} {c : Fin 81} {d : Digit} : h < 27 → Pattern.InHouse h c →
      (∀ c' : Fin 81, Pattern.InHouse h c' → c' ≠ c → Follows g X false c' d) → Follows g X true c d
  /-- It was excluded. -/
  | excluded {c : Fin 81} {d : Digit} : X c d → Follows g X false c d
  /-- Another digit is in the cell. -/
  | filled {c : Fin 81} {d d' : Digit} : Follows g X true c d' → d' ≠ d → Follows g X false c d
  /-- It is in another cell of the row, column or block. -/
  | house {c c' : Fin 81} {d : Digit} : Follows g X true c' d → c' ≠ c → SameHouse c' c → Follows g X false c d

end Verif.Strat
