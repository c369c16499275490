import Mathlib.Data.Finset.Range
import Mathlib.Data.Finset.SymmDiff

/-! Specification: the mathematical set denoted by a bit mask. -/
namespace Verif

/-- Indices of the elements of a bit set. -/
def elems {w : Nat} (a : BitVec w) : Finset Nat := (Finset.range w).filter (fun i => a.getLsbD i = true)

end Verif
