import Verif.Model.Text
import Verif.Model.Print
import Verif.Model.GridState
import Verif.Model.Deductions
import Verif.Model.Canonical
import Verif.Model.Programs
import Verif.Model.Generator

/-!
# The repository's own tests, run on the model

No theorem depends on this file.  It repeats the tests of `/repo` with the functions of the model, as a check that
the model computes what the Rust program computes.  The files of `/repo/sudokus` and `/repo/examples` are read at
run time.  To run the tests (about one minute):

    cd /verif/lean && lake env lean --run Verif/RepoTests.lean

The tests that draw random numbers run here with a fixed pseudorandom stream and with fewer repetitions.  The tests of
`positions.rs` and of `Symmetry` are theorems (C37 and C34) and are left out.
-/
namespace Verif.RepoTests

open Verif Verif.Sudoku Verif.Strat Verif.Canon

def solve1 : String := "___2___63
3____54_1
__1__398_
_______9_
___538___
_3_______
_263__5__
5_37____8
47___1___"

def solve2 : String := "7__|4__|__2 comment
21_|3_5|46_
__9|_28|__1
----------- comment
___|542|3__
___|___|___
__5|817|___
-----------
5__|73_|9__
_63|2_4|_17
8__|__9|__3"

def readmeBlock : String := "___|2__|_63
3__|__5|4_1
__1|__3|98_
---+---+---
___|___|_9_
___|538|___
_3_|___|___
---+---+---
_26|3__|5__
5_3|7__|__8
47_|__1|___"

def readmeLine : String := "...2...633....54.1..1..398........9....538....3........263..5..5.37....847...1..."

def norvig : String := "
        4 . . |. . . |8 . 5
        . 3 . |. . . |. . .
        . . . |7 . . |. . .
        ------+------+------
        . 2 . |. . . |. 6 .
        . . . |. 8 . |4 . .
        . . . |. 1 . |. . .
        ------+------+------
        . . . |6 . 3 |. 7 .
        5 . . |2 . . |. . .
        1 . 4 |. . . |. . .
        "

def euler : String := "
        Grid 01
        003020600
        900305001
        001806400
        008102900
        700000008
        006708200
        002609500
        800203009
        005010300
        Grid 02
        200080300
        060070084
        030500209
        000105408
        000000000
        402706000
        301007040
        720040060
        004010003
        "

def impossibleState : String := "┌──────────────────────────────┬──────────────────────────────┬──────────────────────────────┐
│ 1         2         3        │ 4         5         6        │ 7         8         _        │
│ 45678     45678     45678    │ 12378     12378     12378    │ 123456    123456    9        │
│ 456789    456789    456789   │ 123789    123789    123789   │ 123456    123456    123456   │
├──────────────────────────────┼──────────────────────────────┼──────────────────────────────┤
│ 23456789  13456789  12456789 │ 12356789  12346789  12345789 │ 12345689  12345679  12345678 │
│ 23456789  13456789  12456789 │ 12356789  12346789  12345789 │ 12345689  12345679  12345678 │
│ 23456789  13456789  12456789 │ 12356789  12346789  12345789 │ 12345689  12345679  12345678 │
├──────────────────────────────┼──────────────────────────────┼──────────────────────────────┤
│ 23456789  13456789  12456789 │ 12356789  12346789  12345789 │ 12345689  12345679  12345678 │
│ 23456789  13456789  12456789 │ 12356789  12346789  12345789 │ 12345689  12345679  12345678 │
│ 23456789  13456789  12456789 │ 12356789  12346789  12345789 │ 12345689  12345679  12345678 │
└──────────────────────────────┴──────────────────────────────┴──────────────────────────────┘
"

def xyzState : String := "            ┌─────────────────┬───────────────────┬────────────────┐
            │ 38   9     2    │ 46    48    1     │ 7     5   346  │
            │ 5    134   1467 │ 2     47    679   │ 346   19  8    │
            │ 146  148   1467 │ 4569  3     56789 │ 2     19  46   │
            ├─────────────────┼───────────────────┼────────────────┤
            │ 38   7     5    │ 13    128   4     │ 9     6   12   │
            │ 2    38    14   │ 139   6     89    │ 148   7   5    │
            │ 14   6     9    │ 7     125   258   │ 148   3   124  │
            ├─────────────────┼───────────────────┼────────────────┤
            │ 146  145   8    │ 1456  9     567   │ 1356  2   1367 │
            │ 7    1245  146  │ 1456  1245  3     │ 156   8   9    │
            │ 9    125   3    │ 8     1257  2567  │ 156   4   167  │
            └─────────────────┴───────────────────┴────────────────┘
"

def wrongFormat1 : String := "___2___63
3____54_1
__1__398_
_______9_
___538___
_3_______
_263__5__
5_37____8"

/-! ## Helpers -/

def unwrap (what : String) : Res α → IO α
  | .ok x => pure x
  | .err => throw (IO.userError s!"{what}: err")
  | .panic => throw (IO.userError s!"{what}: panic")
  | .timeout => throw (IO.userError s!"{what}: out of fuel")

def unwrapE (what : String) (r : Res (Except ε α)) : IO α := do
  match ← unwrap what r with
  | .ok x => pure x
  | .error _ => throw (IO.userError s!"{what}: returned an error")

def check (name : String) (b : Bool) : IO Unit :=
  if b then IO.println s!"ok {name}" else throw (IO.userError s!"FAILED {name}")

def line (s : String) : IO Grid := unwrapE "from_str_line" (fromStrLine s.toList)

/-- `read_sudokus`, tests/lib.rs lines 3-8. -/
def readSudokus (p : String) : IO (List Grid) := do
  let t ← IO.FS.readFile ("/repo/sudokus/Lines/" ++ p ++ "_sudokus.txt")
  let ls := (t.splitOn "\n").filter (· ≠ "")
  ls.mapM (fun l => line (if l.endsWith "\r" then (l.dropEnd 1).toString else l))

/-- `Strategy::ALL`. -/
def all : List Strategy :=
  [.nakedSingles, .hiddenSingles, .lockedCandidates, .nakedPairs, .xWing, .hiddenPairs, .nakedTriples, .swordfish,
   .hiddenTriples, .xyWing, .xyzWing, .nakedQuads, .jellyfish, .hiddenQuads]

def fuel : Nat := 1000

/-- A linear congruential generator. -/
def lcg (s : UInt64) : UInt64 := s * 6364136223846793005 + 1442695040888963407

def number (s : UInt64) : Nat := (s >>> 33).toNat

/-- `n` pseudorandom numbers. -/
def numbers : Nat → UInt64 → List Nat
  | 0, _ => []
  | n + 1, s => number s :: numbers n (lcg s)

def shuffleList (s : UInt64) (l : List Nat) : List Nat :=
  (((numbers l.length s).zip l).mergeSort (fun a b => a.1 ≤ b.1)).map (·.2)

def stream (seed : UInt64) : Generator.Rng :=
  let a := (numbers 4000 (lcg (lcg seed))).toArray
  fun k => a.getD k 0

def generateSolved (seed : UInt64) : Res Grid := do
  let (g, _) ← Generator.generateSolved fuel (shuffleList seed (List.range' 1 9)) (stream seed)
  .ok g

def generate (seed : UInt64) : Res Grid :=
  Generator.generate fuel (shuffleList seed (List.range' 1 9)) (stream seed) (shuffleList (lcg seed) (List.range 81))

def draws (seed : UInt64) : Draws :=
  let a := (numbers 10 (lcg (lcg (lcg seed)))).toArray
  let d (k : Nat) : Fin 6 := Fin.ofNat 6 (a.getD k 0)
  { permutation := Fin.ofNat 362880 (a.getD 0 0), transpose := a.getD 1 0 % 2 == 1, band := d 2, stack := d 3,
    rows := (d 4, d 5, d 6), cols := (d 7, d 8, d 9) }

/-! ## tests/lib.rs -/

def parsing : IO Unit := do
  let g1 ← unwrapE "solve_1" (fromStrBlock solve1.toList)
  check "solve_1" (← unwrap "solution" (solution fuel g1)).isSome
  let g2 ← unwrapE "solve_2" (fromStrBlock solve2.toList)
  check "solve_2" (← unwrap "solution" (solution fuel g2)).isSome
  let a ← unwrapE "readme" (fromStrBlock readmeBlock.toList)
  let b ← line readmeLine
  let sa ← unwrap "solution" (solution fuel a)
  let sb ← unwrap "solution" (solution fuel b)
  check "readme" (sa.isSome && sa == sb)
  check "from_str_line_too_short" (match fromStrLine "123456789000000000000000".toList with
    | .ok (.error _) => true
    | _ => false)
  for comment in [" foobar", ";genlu", ",gfulenue", "\tnegfulge", "\r\n0123", "\n01234"] do
    check "from_str_line_with_comment" ((← line (readmeLine ++ comment)) == b)
  check "wrong_format_1" (match fromStrBlock wrongFormat1.toList with
    | .ok (.error _) => true
    | _ => false)
  let p1 ← unwrapE "norvig" (fromStrBlockPermissive norvig.toList)
  let p2 ← unwrapE "euler" (fromStrBlockPermissive euler.toList)
  check "parse_permissive" (
    p1 == (← line "4.....8.5.3..........7......2.....6.....8.4......1.......6.3.7.5..2.....1.4......") &&
    p2 == (← line "..3.2.6..9..3.5..1..18.64....81.29..7.......8..67.82....26.95..8..2.3..9..5.1.3.."))

def solving : IO Unit := do
  for k in ["easy", "medium", "hard"] do
    let gs ← readSudokus k
    let ss ← readSudokus ("solved_" ++ k)
    for (g, s) in gs.zip ss do
      unless (← unwrap "solutions_up_to" (solutionsUpTo fuel g 2)) == [s] do
        throw (IO.userError s!"FAILED correct_solution_{k}_sudokus")
    check s!"correct_solution_{k}_sudokus" (gs.length == ss.length && gs.length > 0)
    check s!"is_solved_on_unsolved, {k}" (gs.all (fun g => !isSolved g))
    check s!"is_solved_on_solved, {k}" (ss.all isSolved)
  let invalid ← readSudokus "invalid"
  check "solutionless_sudokus" (invalid.all fun g => match someSolution fuel g with
    | .ok none => true
    | _ => false)

def random : IO Unit := do
  for i in List.range 20 do
    let g ← unwrap "generate_solved" (generateSolved i.toUInt64)
    unless isSolved g do throw (IO.userError s!"FAILED generate_solved {i}")
    let (q, _) ← (do match ← unwrap "canonicalized" (canonicalized fuel g) with
      | some x => pure x
      | none => throw (IO.userError "canonicalized"))
    let sh ← unwrap "shuffled" (shuffle (draws i.toUInt64) g)
    unless isSolved sh do throw (IO.userError s!"FAILED shuffle_solved {i}")
    for h in [sh, q] do
      match ← unwrap "canonicalized" (canonicalized fuel h) with
      | some (q', _) => unless q' == q do throw (IO.userError s!"FAILED canonicalize {i}")
      | none => throw (IO.userError s!"FAILED canonicalize {i}")
  check "generate_solved_sudoku_correctness, shuffle_solved, canonicalize, canonicalize_idempotency" true
  for i in List.range 5 do
    let g ← unwrap "generate" (generate i.toUInt64)
    unless (← unwrap "solution" (solution fuel g)).isSome do
      throw (IO.userError s!"FAILED generate_sudoku_uniqueness {i}")
    let sh ← unwrap "shuffled" (shuffle (draws i.toUInt64) g)
    unless nClues sh == nClues g && !(sh == g) do throw (IO.userError s!"FAILED shuffle_unsolved {i}")
  check "generate_sudoku_uniqueness, shuffle_unsolved" true

/-! ## src/board/canonicalization.rs -/

def canonicalization : IO Unit := do
  let mc ← line "123456789456789123789123456231564897564897231897231564312645978645978312978312645"
  let (q, _, n) ← unwrap "find_canonical" (findCanonical mc)
  check "most_canonical_grid_automorphism_count" (n == 648 && q == mc)
  for g in (← readSudokus "solved_easy").take 10 do
    let (q, t, _) ← unwrap "find_canonical" (findCanonical g)
    check "transformation_from_struct" ((← unwrap "apply" (t.apply g)) == q)

/-! ## src/strategy -/

/-- The state of the solver as a vector, for `Display`. -/
def displayState (l : List CellState) : Res (List Char) :=
  if h : l.length = 81 then GridState.display ⟨l.toArray, by simpa using h⟩ else .panic

def strategies : IO Unit := do
  for (k, unsolved) in [("easy", []), ("medium", [8])] do
    let gs ← readSudokus k
    let ss ← readSudokus ("solved_" ++ k)
    let mut i := 0
    for (g, s) in gs.zip ss do
      match ← unwrap "solve" (do (← Solver.fromSudoku g).solve fuel all : Res _) with
      | .ok (t, _) => unless t == s do throw (IO.userError s!"FAILED strategy solver {k} {i}")
      | .error _ => unless unsolved.contains i do throw (IO.userError s!"FAILED strategy solver {k} {i}")
      i := i + 1
    check s!"strategy_solver_correct_solution_{k}_sudokus" true
    for g in gs do
      let txt ← unwrap "to_grid_state_str" (do (← Solver.fromSudoku g).display fuel : Res _)
      let txt2 ← unwrap "from_grid_state_str" (do (← Solver.fromGridStateStr txt).display fuel : Res _)
      unless txt == txt2 do throw (IO.userError s!"FAILED roundtrip_grid_state_str {k}")
    check s!"roundtrip_grid_state_str, {k}" true
  let imp ← line "12345678.........9..............................................................."
  let txt ← unwrap "to_grid_state_str" (do (← Solver.fromSudoku imp).display fuel : Res _)
  check "grid_state_str_impossible_sudoku" (String.ofList txt == impossibleState)
  let st ← unwrap "grid_state" (do (← Solver.fromGridStateStr txt).gridState fuel : Res _)
  let txt2 ← unwrap "display" (displayState st)
  check "grid_state_roundtrip" (String.ofList txt2 ++ "\n" == impossibleState)
  let xy ← line "9..24.....5.69.231.2..5..9..9.7..32...29356.7.7...29...69.2..7351..79.622.7.86..9"
  match ← unwrap "xy_wing" (do (← Solver.fromSudoku xy).solve fuel [.xyWing] : Res _) with
  | .error (_, d) => match ← unwrap "get" (d.get 0) with
    | some (.wing hinge _ pincers conflicts) =>
      check "xy_wing" (hinge.val == 1 && pincers.toNat == 2 ^ (1 * 9 + 2) + 2 ^ (8 * 9 + 1) &&
        conflicts.map (fun c => (c.cell.val, c.digit.val + 1)) == [(7 * 9 + 2, 4)])
    | _ => check "xy_wing" false
  | .ok _ => check "xy_wing" false
  match ← unwrap "xyz_wing" (do (← Solver.fromGridStateStr xyzState.toList).solve fuel [.xyzWing] : Res _) with
  | .error (_, d) => match ← unwrap "get" (d.get 0) with
    | some (.wing hinge digits pincers conflicts) =>
      check "xyz_wing" (hinge.val == 5 * 9 + 8 && digits.toNat == 2 ^ 0 + 2 ^ 1 + 2 ^ 3 &&
        pincers.toNat == 2 ^ (3 * 9 + 8) + 2 ^ (5 * 9) &&
        conflicts.map (fun c => (c.cell.val, c.digit.val + 1)) == [(5 * 9 + 6, 1)] && d.len == 1)
    | _ => check "xyz_wing" false
  | .ok _ => check "xyz_wing" false

/-! ## examples -/

def examples : IO Unit := do
  let text ← IO.FS.readFile "/repo/examples/p096_sudoku.txt"
  check "project_euler" ((← unwrap "project_euler" (Programs.projectEuler fuel text.toList)) == 24702)

def run : IO Unit := do
  parsing
  solving
  canonicalization
  strategies
  examples
  random

end Verif.RepoTests

def main : IO Unit := Verif.RepoTests.run
