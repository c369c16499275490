import Verif.Spec.History
import Verif.Model.Text
import Verif.Model.Generator
import Verif.Model.Canonical

/-!
# Specification: the sudokus that can be made with the public functions

From the model the public functions that return a `Sudoku` are used.
-/
namespace Verif

open Verif.Sudoku Verif.Strat Verif.Canon Verif.Generator

/-- The sudoku is returned by a public function, for sudokus that were themselves returned by public functions. -/
inductive Obtainable : Grid → Prop
  | fromBytes {b : Vector UInt8 81} {g : Grid} : fromBytes b = some g → Obtainable g
  | fromBytesSlice {b : List UInt8} {g : Grid} : fromBytesSlice b = .ok g → Obtainable g
  | fromStrLine {s : List Char} {g : Grid} : fromStrLine s = .ok (.ok g) → Obtainable g
  | fromStrBlock {s : List Char} {g : Grid} : fromStrBlock s = .ok (.ok g) → Obtainable g
  | fromStrBlockPermissive {s : List Char} {g : Grid} : fromStrBlockPermissive s = .ok (.ok g) → Obtainable g
  | deserialize {humanReadable : Bool} {d : Serialized} {g : Grid} : deserialize humanReadable d = .ok (some g) →
      Obtainable g
  | solutionsUpTo {fuel limit : Nat} {g t : Grid} {L : List Grid} : Obtainable g → 800 ≤ fuel →
      solutionsUpTo fuel g limit = .ok L → t ∈ L → Obtainable t
  | solutionsUpToBuffer {fuel limit n : Nat} {g t : Grid} {target target' : List Grid} : Obtainable g →
      (∀ x ∈ target, Obtainable x) → 800 ≤ fuel → solutionsUpToBuffer fuel g target limit = .ok (n, target') →
      t ∈ target' → Obtainable t
  | someSolution {fuel : Nat} {g t : Grid} : Obtainable g → 800 ≤ fuel → someSolution fuel g = .ok (some t) → Obtainable t
  | solution {fuel : Nat} {g t : Grid} : Obtainable g → 800 ≤ fuel → solution fuel g = .ok (some t) → Obtainable t
  | shuffle {d : Draws} {g g' : Grid} : Obtainable g → shuffle d g = .ok g' → Obtainable g'
  | canonicalized {fuel n : Nat} {g q : Grid} : Obtainable g → 800 ≤ fuel → canonicalized fuel g = .ok (some (q, n)) →
      Obtainable q
  | generateWithSymmetryFrom {fuel : Nat} {g p : Grid} {s : Symmetry} {order : List Nat} : Obtainable g → 800 ≤ fuel →
      order.Perm (List.range 81) → generateWithSymmetryFrom fuel g s order = .ok p → Obtainable p
  | generateSolved {fuel : Nat} {perm : List Nat} {rng rng' : Nat → Nat} {g : Grid} : 1460 ≤ fuel →
      perm.Perm [1, 2, 3, 4, 5, 6, 7, 8, 9] → generateSolved fuel perm rng = .ok (g, rng') → Obtainable g
  | generateWithSymmetry {fuel : Nat} {s : Symmetry} {perm order : List Nat} {rng : Nat → Nat} {p : Grid} : 1460 ≤ fuel →
      perm.Perm [1, 2, 3, 4, 5, 6, 7, 8, 9] → order.Perm (List.range 81) →
      generateWithSymmetry fuel s perm rng order = .ok p → Obtainable p
  | toSudoku {looked : Bool} {s : Solver} {g : Grid} {X : Fin 81 → Digit → Prop} : Reaches looked s g X →
      Obtainable s.toSudoku.2
  | solve {looked : Bool} {s : Solver} {g : Grid} {X : Fin 81 → Digit → Prop} {fuel : Nat} {sts : List Strategy}
      {r : Grid × Deductions} : Reaches looked s g X → 1000 ≤ fuel → Returned fuel sts s r → Obtainable r.1

end Verif
