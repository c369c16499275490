import Verif.Model.Positions
import Verif.Model.Res

/-!
# Model of the constructors of digits, positions and candidates

`/repo/src/board/digit.rs`, `/repo/src/board/positions.rs` (the macro `define_types`, lines 166-209) and
`/repo/src/board/candidate.rs`.  A value is the number in it (`get`).  `debug` says whether the library was compiled with
debug assertions and overflow checks.
-/
namespace Verif.Numbers

open Verif

/-- The types of positions with their limits, src/board/positions.rs lines 262-275. -/
inductive Kind where
  | cell | row | col | block | line | house | miniRow | miniCol | miniLine | band | stack | chute

/-- `$limit`, src/board/positions.rs lines 262-275. -/
def Kind.limit : Kind → UInt8
  | .cell => 81
  | .row => 9
  | .col => 9
  | .block => 9
  | .line => 18
  | .house => 27
  | .miniRow => 27
  | .miniCol => 27
  | .miniLine => 54
  | .band => 3
  | .stack => 3
  | .chute => 6

/-- `new`, src/board/positions.rs lines 181-184: only a `debug_assert`. -/
def posNew (debug : Bool) (k : Kind) (num : UInt8) : Res UInt8 := do
  Res.assert (!debug || decide (num < k.limit))
  .ok num

/-- `new_checked`, src/board/positions.rs lines 187-193. -/
def posNewChecked (k : Kind) (num : UInt8) : Option UInt8 := if num < k.limit then some num else none

/-- The numbers `a..b` of type `u8`. -/
def range (a b : UInt8) : List UInt8 := (List.range' a.toNat (b.toNat - a.toNat)).map (fun n => UInt8.ofNat n)

/-- `all`, src/board/positions.rs lines 207-209. -/
def posAll (debug : Bool) (k : Kind) : Res (List UInt8) := (range 0 k.limit).mapM (posNew debug k)

/-- `Option::unwrap`. -/
def unwrap {α : Type} : Option α → Res α
  | some a => .ok a
  | none => .panic

/-- `Digit::new`, src/board/digit.rs lines 13-15. -/
def digitNew (digit : UInt8) : Res UInt8 := unwrap (Pos.digitNewChecked digit)

/-- `Digit::from_index`, src/board/digit.rs lines 30-32.  Without overflow checks `idx + 1` wraps. -/
def digitFromIndex (debug : Bool) (idx : UInt8) : Res UInt8 := do
  Res.assert (!debug || decide (idx ≠ 255))
  unwrap (Pos.digitNewChecked (idx + 1))

/-- `Digit::all`, src/board/digit.rs lines 34-36. -/
def digitAll : Res (List UInt8) := (range 1 10).mapM digitNew

/-- `Digit::as_index`, src/board/digit.rs lines 44-46: `get() as usize - 1`.  (A digit is not zero.) -/
def digitAsIndex (digit : UInt8) : Nat := Pos.digitIndex digit

/-- `Candidate::new`, src/board/candidate.rs lines 19-27. -/
def candidateNew (debug : Bool) (cell digit : UInt8) : Res (UInt8 × UInt8) := do
  Res.assert (decide (cell < 81))
  Res.assert (decide (0 < digit) && decide (digit < 10))
  .ok (← posNew debug .cell cell, ← digitNew digit)

end Verif.Numbers
