import Verif.Model.Positions

/-!
# Model of `/repo/src/board/candidate.rs` and of iteration over sets of positions

A `Digit` (src/board/digit.rs) is modelled by its index (`as_index`, lines 44-46): `Fin 9`, where `d` stands for the
digit `d + 1`.  The range checks in `Digit::new` (lines 13-15) and `Cell::new` are discharged by the types; where the
code computes a number and converts it, the model checks the range and panics if it does not hold.
-/
namespace Verif

/-- `Digit`, src/board/digit.rs line 6, as its index. -/
abbrev Digit := Fin 9

/-- `Digit::get`, src/board/digit.rs lines 39-41. -/
def Digit.get (d : Digit) : UInt8 := UInt8.ofNat (d.val + 1)

/-- `Set<Digit>`. -/
abbrev DigitSet := BitVec 16

/-- `Candidate`, src/board/candidate.rs lines 7-10. -/
structure Candidate where
  cell : Fin 81
  digit : Digit
deriving DecidableEq, Repr

namespace Candidate

/-- `row`, src/board/candidate.rs lines 31-33, converted to a `House`. -/
def row (c : Candidate) : Fin 27 := Pos.rowHouse (Pos.cellRow c.cell)
/-- `col`, src/board/candidate.rs lines 37-39, converted to a `House`. -/
def col (c : Candidate) : Fin 27 := Pos.colHouse (Pos.cellCol c.cell)
/-- `block`, src/board/candidate.rs lines 43-45, converted to a `House`. -/
def block (c : Candidate) : Fin 27 := Pos.blockHouse (Pos.cellBlock c.cell)
/-- `digit_set`, src/board/candidate.rs lines 48-50. -/
def digitSet (c : Candidate) : DigitSet := Bitset.asSet 16 c.digit.val

/-- `Candidate::new`, src/board/candidate.rs lines 19-27. -/
def new (cell digit : Nat) : Res Candidate :=
  if hc : cell < 81 then
    if hd : 0 < digit ∧ digit < 10 then .ok ⟨⟨cell, hc⟩, ⟨digit - 1, by omega⟩⟩ else .panic
  else .panic

end Candidate

namespace Bitset

/-- `from_index` of the `n` positions of a type: panics if the number is out of range (the `debug_assert!` in `new`). -/
def toFin (n : Nat) (i : Nat) : Res (Fin n) := if h : i < n then .ok ⟨i, h⟩ else .panic

/-- The elements of a set in the order of iteration, `into_iter`, src/bitset.rs lines 303-347. -/
def items {w : Nat} (n : Nat) (a : BitVec w) : Res (List (Fin n)) := do
  (← iter n a).mapM (toFin n)

/-- `unique`, src/bitset.rs lines 179-192, with the element as a position. -/
def uniqueItem {w : Nat} (n : Nat) (a : BitVec w) : Res (Except Unit (Option (Fin n))) := do
  match ← unique n a with
  | .error () => .ok (.error ())
  | .ok none => .ok (.ok none)
  | .ok (some i) => do .ok (.ok (some (← toFin n i)))

end Bitset
end Verif
