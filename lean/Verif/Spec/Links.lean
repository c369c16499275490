import Verif.Spec.Patterns

/-!
# Specification: links between candidates
-/
namespace Verif.Pattern

open Verif Strat

/-- The cell has two candidates: these. -/
def TwoInCell (cand : Fin 81 → Digit → Prop) (c : Fin 81) (d d' : Digit) : Prop :=
  d ≠ d' ∧ ∀ x, cand c x ↔ x = d ∨ x = d'

/-- The house has two places for the digit: these. -/
def TwoInHouse (cand : Fin 81 → Digit → Prop) (h : Nat) (d : Digit) (c c' : Fin 81) : Prop :=
  c ≠ c' ∧ InHouse h c ∧ InHouse h c' ∧ ∀ x, InHouse h x → (cand x d ↔ x = c ∨ x = c')

/-- One candidate or the other, because there is no other one in the cell or in a house. -/
def StrongLink (cand : Fin 81 → Digit → Prop) (e e' : Candidate) : Prop :=
  (e.cell = e'.cell ∧ TwoInCell cand e.cell e.digit e'.digit) ∨
  (e.digit = e'.digit ∧ ∃ h, TwoInHouse cand h e.digit e.cell e'.cell)

/-- The candidates exclude each other, as they are different and in one cell, or have the same digit and are in one house. -/
def Exclusive (cand : Fin 81 → Digit → Prop) (e e' : Candidate) : Prop :=
  e ≠ e' ∧ cand e.cell e.digit ∧ cand e'.cell e'.digit ∧
  (e.cell = e'.cell ∨ e.digit = e'.digit ∧ ∃ h, InHouse h e.cell ∧ InHouse h e'.cell)

end Verif.Pattern
