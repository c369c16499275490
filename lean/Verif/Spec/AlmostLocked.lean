import Verif.Spec.Patterns

/-!
# Specification: almost locked sets
-/
namespace Verif.Pattern

open Verif Strat

/-- An almost locked set of size `n` in a house: `n` cells of the house, each with two candidates or more, that have `n + 1`
candidates together. -/
structure AlmostLocked (cand : Fin 81 → Digit → Prop) (n h : Nat) (cells : Pos.Cells) (digits : DigitSet) : Prop where
  inHouse : ∀ i, Has cells i → ∃ c : Fin 81, c.val = i ∧ InHouse h c
  size : (elems cells).card = n
  two : ∀ c : Fin 81, Has cells c.val → ∃ d d', d ≠ d' ∧ cand c d ∧ cand c d'
  together : ∀ i, Has digits i ↔ ∃ d : Digit, d.val = i ∧ ∃ c : Fin 81, Has cells c.val ∧ cand c d
  more : (elems digits).card = n + 1

end Verif.Pattern
