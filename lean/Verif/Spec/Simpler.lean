import Verif.Model.Strategy

/-!
# Specification: lists of strategies that contain the simpler ones
-/
namespace Verif.Strat

/-- The simpler variants of a strategy: what its pattern becomes when one of its cells is filled or loses a candidate. -/
def simpler : Strategy → List Strategy
  | .nakedTriples => [.nakedPairs]
  | .nakedQuads => [.nakedPairs, .nakedTriples]
  | .hiddenTriples => [.hiddenPairs]
  | .hiddenQuads => [.hiddenPairs, .hiddenTriples]
  | .swordfish => [.xWing]
  | .jellyfish => [.xWing, .swordfish]
  | .xyWing => [.nakedTriples, .lockedCandidates]
  | .xyzWing => [.nakedPairs, .xyWing]
  | _ => []

/-- A list of strategies with both kinds of singles and, for each of its strategies, the simpler ones. -/
def WithSimpler (sts : List Strategy) : Prop :=
  .nakedSingles ∈ sts ∧ .hiddenSingles ∈ sts ∧ ∀ st ∈ sts, ∀ st' ∈ simpler st, st' ∈ sts

instance (sts : List Strategy) : Decidable (WithSimpler sts) := by unfold WithSimpler; infer_instance

end Verif.Strat
