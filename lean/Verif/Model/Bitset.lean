import Verif.Model.Res

/-!
# Model of `/repo/src/bitset.rs`

`Set<T>` is its storage integer, a `BitVec w`; `n` is the number of possible elements.
Elements are represented by their index (`as_index`).  The instances of the Rust code
(lines 282-301) are `Cell` (w = 128, n = 81), `Digit` (16, 9), `Line` (32, 18), `House` (32, 27),
`Position<Line>` and `Position<House>` (16, 9).
-/
namespace Verif.Bitset

variable {w : Nat}

/-- `n_bits_set`, src/bitset.rs lines 248-250 (computed in `u128`). -/
def nBitsSet (n : Nat) : BitVec 128 := (1#128 <<< n) - 1#128

/-- `SetElement::ALL` (line 258) and `Set::ALL` (line 121): truncated to the storage type. -/
def ALL (w n : Nat) : BitVec w := (nBitsSet n).setWidth w

/-- `SetElement::NONE` (line 259), `Set::NONE` (line 124). -/
def NONE (w : Nat) : BitVec w := 0#w

/-- `as_set`, src/bitset.rs lines 267-269: `1 << index`. -/
def asSet (w : Nat) (i : Nat) : BitVec w := 1#w <<< i

/-- `from_bits`, src/bitset.rs lines 130-133: panics if the mask exceeds `ALL`. -/
def fromBits (n : Nat) (m : BitVec w) : Res (BitVec w) := do
  Res.assert (decide (m ≤ ALL w n))
  .ok m

/-- `BitAnd` for sets, src/bitset.rs lines 36-60 and 82-86. -/
def inter (a b : BitVec w) : BitVec w := a &&& b
/-- `BitOr` for sets, src/bitset.rs lines 36-60 and 82-86. -/
def union (a b : BitVec w) : BitVec w := a ||| b
/-- `BitXor` for sets, src/bitset.rs lines 36-60 and 82-86. -/
def symmDiff (a b : BitVec w) : BitVec w := a ^^^ b

/-- `without`, src/bitset.rs lines 141-143; `remove` (lines 146-148) stores the same value. -/
def without (a b : BitVec w) : BitVec w := a &&& ~~~b

/-- `Not for Set<T>`, src/bitset.rs lines 94-102. -/
def compl (n : Nat) (a : BitVec w) : BitVec w := without (ALL w n) a

/-- `overlaps`, src/bitset.rs lines 151-153. -/
def overlaps (a b : BitVec w) : Bool := inter a b != NONE w

/-- `contains`, src/bitset.rs lines 156-159. -/
def contains (a b : BitVec w) : Bool := inter a b == b

/-- `count_ones` of the storage type. -/
def countOnes (a : BitVec w) : Nat := ((List.range w).filter (fun i => a.getLsbD i)).length

/-- `len`, src/bitset.rs lines 162-164 (`count_ones() as u8`). -/
def len (a : BitVec w) : UInt8 := UInt8.ofNat (countOnes a)

/-- `is_empty`, src/bitset.rs lines 167-169. -/
def isEmpty (a : BitVec w) : Bool := len a == 0

/-- `is_full`, src/bitset.rs lines 172-174. -/
def isFull (n : Nat) (a : BitVec w) : Bool := a == ALL w n

/-- Position of the lowest set bit among bits `i .. i+k-1`, else `i+k`. -/
def lowBitFrom (m : BitVec w) (i : Nat) : Nat → Nat
  | 0 => i
  | k + 1 => if m.getLsbD i then i else lowBitFrom m (i + 1) k

/-- `trailing_zeros` of the storage type. -/
def trailingZeros (m : BitVec w) : Nat := lowBitFrom m 0 w

/-- `Iterator::next` for `Iter<T>`, src/bitset.rs lines 312-321: index of the element and the
remaining set.  The `debug_assert!` is checked; `!self.0 + 1` does not overflow because the
set is not empty. -/
def next (n : Nat) (a : BitVec w) : Res (Option (Nat × BitVec w)) := do
  Res.assert (decide (a ≤ ALL w n))
  if a = 0#w then .ok none
  else
    let lowest := a &&& (~~~a + 1#w)
    .ok (some (trailingZeros lowest, a ^^^ lowest))

/-- The items produced by iterating a set to the end (`fuel` bounds the number of steps). -/
def iterAux (n : Nat) : Nat → BitVec w → Res (List Nat)
  | 0, _ => .timeout
  | fuel + 1, a => do
    match ← next n a with
    | none => .ok []
    | some (i, rest) => do .ok (i :: (← iterAux n fuel rest))

/-- `into_iter().collect()`. -/
def iter (n : Nat) (a : BitVec w) : Res (List Nat) := iterAux n (w + 1) a

/-- `unique`, src/bitset.rs lines 179-192: `Ok(Some(x))`, `Ok(None)` or `Err(Empty)`. -/
def unique (n : Nat) (a : BitVec w) : Res (Except Unit (Option Nat)) :=
  if len a = 1 then do
    let e := (← next n a).map Prod.fst
    Res.assert e.isSome
    .ok (.ok e)
  else if len a = 0 then .ok (.error ())
  else .ok (.ok none)

/-- `one_possibility`, src/bitset.rs lines 200-205. -/
def onePossibility (n : Nat) (a : BitVec w) : Res Nat := do
  match ← next n a with
  | some (i, _) => .ok i
  | none => .panic

end Verif.Bitset
