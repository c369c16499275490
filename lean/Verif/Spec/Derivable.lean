import Verif.Spec.Patterns

/-!
# Specification: what follows by a list of strategies
-/
namespace Verif.Strat

open Verif

/-- `Derivable sts g X true e`: the digit of `e` follows for its cell from the given digits `g` and the excluded candidates `X`
by the patterns of the strategies.  `Derivable sts g X false e`: the candidate `e` is excluded by them.  A pattern is seen
on the candidates that are left by some of the digits and exclusions that follow. -/
inductive Derivable (sts : List Strategy) (g : Grid) (X : Fin 81 → Digit → Prop) : Bool → Candidate → Prop
  /-- The digit was given. -/
  | given {e : Candidate} : g[e.cell] = e.digit.get → Derivable sts g X true e
  /-- The candidate was excluded. -/
  | excluded {e : Candidate} : X e.cell e.digit → Derivable sts g X false e
  /-- A pattern enters the digit. -/
  | entry {E R : List Candidate} {st : Strategy} {x : Deduction (List Candidate)} {e : Candidate} :
      (∀ e' ∈ E, Derivable sts g X true e') → (∀ e' ∈ R, Derivable sts g X false e') → st ∈ sts →
      Pattern.Matches (Pattern.after E R) st x → Pattern.entry x = some e → Derivable sts g X true e
  /-- A pattern excludes the candidate. -/
  | removed {E R : List Candidate} {st : Strategy} {x : Deduction (List Candidate)} {e : Candidate} :
      (∀ e' ∈ E, Derivable sts g X true e') → (∀ e' ∈ R, Derivable sts g X false e') → st ∈ sts →
      Pattern.Matches (Pattern.after E R) st x → e ∈ Pattern.removed x → Derivable sts g X false e

end Verif.Strat
