import Verif.Model.Strategy

/-!
# Model: reading the list of deductions
-/
namespace Verif.Strat

/-- `Deductions::len`, src/strategy/deduction.rs lines 36-38. -/
def Deductions.len (ds : Deductions) : Nat := ds.deductions.length

/-- `Deductions::is_empty`, src/strategy/deduction.rs lines 41-43. -/
def Deductions.isEmpty (ds : Deductions) : Bool := ds.len == 0

/-- `Deductions::iter` and `Iter::next`, src/strategy/deduction.rs lines 20-33 and 54-59: the items in order.  Each item
is what one call of `next` returns or a panic in that call. -/
def Deductions.iter (ds : Deductions) : List (Res (Deduction (List Candidate))) :=
  ds.deductions.map (fun d => withSlices d ds.eliminated)

end Verif.Strat
