import Verif.Model.Text

/-!
# Model of `/repo/examples/`: the two programs that use the library

`panic` also stands for `unwrap` of an error.
-/
namespace Verif.Programs

open Verif Text Sudoku

/-- `sudoku_str`, examples/example.rs lines 5-14. -/
def exampleText : List Char := [
  '_', '_', '_', '|', '2', '_', '_', '|', '_', '6', '3', '\n',
  '3', '_', '_', '|', '_', '_', '5', '|', '4', '_', '1', '\n',
  '_', '_', '1', '|', '_', '_', '3', '|', '9', '8', '_', '\n',
  '_', '_', '_', '|', '_', '_', '_', '|', '_', '9', '_', '\n',
  '_', '_', '_', '|', '5', '3', '8', '|', '_', '_', '_', '\n',
  '_', '3', '_', '|', '_', '_', '_', '|', '_', '_', '_', '\n',
  '_', '2', '6', '|', '3', '_', '_', '|', '5', '_', '_', '\n',
  '5', '_', '3', '|', '7', '_', '_', '|', '_', '_', '8', '\n',
  '4', '7', '_', '|', '_', '_', '1', '|', '_', '_', '_']

/-- `main`, examples/example.rs lines 3-20: what is printed without the final newline (`Display` of a sudoku is its line,
src/board/sudoku.rs lines 807-811 and 870-874), or `none` if nothing is printed. -/
def exampleMain (fuel : Nat) : Res (Option (List Char)) := do
  match ← fromStrBlock exampleText with
  | .error _ => .panic
  | .ok sudoku =>
    match ← solution fuel sudoku with
    | some t => .ok (some (← lineDeref (toStrLine t)))
    | none => .ok none

/-- The separator, examples/project_euler.rs line 13. -/
def gridWord : List Char := ['G', 'r', 'i', 'd']

/-- `split("Grid")`, examples/project_euler.rs line 13: the pieces between the matches that are found from left to right
and do not overlap.  `skip` characters of a match are still to be passed over, `acc` is the current piece reversed. -/
def splitGrid : Nat → List Char → List Char → List (List Char)
  | _, acc, [] => [acc.reverse]
  | 0, acc, c :: rest =>
    if gridWord.isPrefixOf (c :: rest) then acc.reverse :: splitGrid 3 [] rest else splitGrid 0 (c :: acc) rest
  | skip + 1, acc, _ :: rest => splitGrid skip acc rest

/-- The fold of examples/project_euler.rs line 19.  `array[..3]` has three entries, and `u32` does not overflow. -/
def cornerNumber (t : Grid) : Nat := (t.toList.take 3).foldl (fun acc num => acc * 10 + num.toNat) 0

/-- The loop of examples/project_euler.rs lines 12-20.  `sum` is a `u32` (line 10, by the type of the fold). -/
def eulerLoop (fuel : Nat) : List (List Char) → Nat → Res Nat
  | [], sum => .ok sum
  | p :: ps, sum => do
    match ← fromStrBlockPermissive p with
    | .error _ => .panic
    | .ok sudoku =>
      match ← someSolution fuel sudoku with
      | none => .panic
      | some t =>
        let sum := sum + cornerNumber t
        if sum < 4294967296 then eulerLoop fuel ps sum else .panic

/-- `main`, examples/project_euler.rs lines 9-22: the number that is printed, for any text in place of `p096_sudoku.txt`. -/
def projectEuler (fuel : Nat) (text : List Char) : Res Nat := eulerLoop fuel ((splitGrid 0 [] text).drop 1) 0

end Verif.Programs
