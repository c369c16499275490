# Formal model of Emerentius/sudoku in Lean 4

Source of truth: `/repo/src` (Rust, pinned commit), read as text.  Lean 4.33.0, Mathlib modules imported one at a time.

* `lean/Verif/Model`: the model, function by function; each definition cites the lines it follows.
* `lean/Verif/Spec`: the specification, small and independent of the model's helpers.
* `lean/Verif/Proofs`: lemmas.
* `lean/Verif/Props`: the theorems `CNN_*` of the properties, each with an `example` that meets its hypotheses.
* `seeded/LOG.jsonl`: wrong programs that were tried against the theorems. `failed_first` names the declarations at which
  the build stopped. `theorems_failed` lists every property theorem that depends on one of them: its proof no longer goes
  through, which alone does not show that its statement became false.

## Modelling conventions

* `[u8; 81]` is `Vector UInt8 81`; the `u32` masks of the fast solver are `BitVec 32`; `Set<T>` is its bit mask; strings
  are lists of characters with their UTF-8 bytes.
* `&mut self` methods return the new value.  `Result<_, Unsolvable>`, panics (index out of bounds, failed
  `debug_assert!`, `unwrap` on `None`, arithmetic overflow) and running out of fuel are distinct constructors
  `ok | err | panic | timeout` of the result type `Res` (`Model/Res.lean`).  The strategy solver, which keeps what it
  changed before an error, returns the changed solver with a Boolean instead of `err`.
* Loops and recursion that Rust does not bound carry a fuel argument.  The theorems say for every fuel above an explicit
  constant what the result is, in particular that it is not `timeout` and not `panic`.
* Lookup tables are copied literally from the source by a script.  Their meaning is a theorem over the complete table
  (`decide +kernel` over all entries, that is kernel evaluation of a complete finite domain), from which the general proofs
  start.
* Random choices (`rand`) are explicit arguments over which the theorems quantify.

## Model and specification files

| Rust | Lean model |
|------|------------|
| `solver.rs` (whole file) | `Model/FastSolver.lean`, tables in `Model/Tables.lean` |
| `board/sudoku.rs`: construction, cells, solving | `Model/Sudoku.lean` |
| `board/sudoku.rs`: parsing, printing, serde visitors; `errors.rs` | `Model/Text.lean` |
| `board/sudoku.rs`: `generate*`, symmetries | `Model/Generate.lean` |
| `board/sudoku.rs`: `shuffle`, `canonicalized`; `board/canonicalization.rs` | `Model/Canonical.lean` |
| `generator.rs` | `Model/Generator.lean` |
| `bitset.rs` | `Model/Bitset.lean` |
| `board/positions.rs`, `board/digit.rs` | `Model/Positions.lean`, `Model/PosTables.lean` |
| `board/candidate.rs` | `Model/Candidate.lean` |
| `board/positions.rs` with machine integers | `Model/RawPositions.lean` |
| the readers of text in `board/sudoku.rs` with machine integers | `Model/RawText.lean` |
| `board/canonicalization.rs` with machine integers | `Model/RawCanonical.lean` |
| constructors in `board/positions.rs`, `board/digit.rs`, `board/candidate.rs` | `Model/Numbers.lean` |
| `strategy/solver.rs`, `strategy/strategies.rs`, `strategy/strategies/*.rs`, `strategy/deduction.rs`, `board/cell_state.rs` | `Model/Strategy.lean`, `Model/Deductions.lean` |
| `Display` of `StrategySolver` and `CellState`, `from_grid_state_str` | `Model/Print.lean` |
| `board/grid_state.rs` (whole file) | `Model/GridState.lean` |
| `strategies/avoidable_rectangles.rs` (whole file, not called by the crate) | `Model/Rectangles.lean` |
| `strategies/almost_locked_sets.rs` (whole file, not called by the crate) | `Model/AlmostLocked.lean` |
| `strategy/utils.rs` (whole file, not called by the crate) | `Model/Links.lean` |

| Specification | content |
|---------------|---------|
| `Spec/Board.lean` | rows, columns, blocks, `WellFormed`, `Solved`, `IsSolution`, `UniquelySolvable` |
| `Spec/Text.lean`, `Spec/BlockErrors.lean` | UTF-8, `str::lines`, the languages of the formats, the documented errors |
| `Spec/Equivalence.lean` | sudoku transformations and equivalence |
| `Spec/Symmetry.lean` | mirrors and rotations of the board |
| `Spec/Sets.lean` | the finite set of a bit mask |
| `Spec/Patterns.lean` | the patterns of the human strategies |
| `Spec/History.lean` | histories of calls of a `StrategySolver`, solutions with exclusions |
| `Spec/Remaining.lean` | the candidates that are left when `solve` gives up |
| `Spec/Simpler.lean` | the simpler variants of each strategy |
| `Spec/Moved.lean` | where cells and candidates go when a board is transformed |
| `Spec/GridText.lean` | the table that a `StrategySolver` prints, and which candidates are ruled out by elimination |
| `Spec/Singles.lean` | what follows by naked and hidden singles |
| `Spec/Play.lean`, `Spec/Examples.lean` | concrete cases for the examples |
| `Spec/Moment.lean` | the candidates that are left when a deduction is made |
| `Spec/Rectangles.lean` | avoidable rectangles |
| `Spec/AlmostLocked.lean` | almost locked sets |
| `Spec/Links.lean` | links between candidates |
| `Spec/Derivable.lean` | what follows by a list of strategies |
| `Spec/Obtainable.lean` | sudokus returned by public functions |
| `Spec/Split.lean` | pieces between the occurrences of a word |

## Plan per property

| id | what is modelled | how it is proved |
|----|------------------|------------------|
| C01-C05 | `solver.rs` whole file | propagation preserves the solution set; invariant of processed subbands; induction on the recursion depth of `guess`: the result list is duplicate-free, sound, complete up to the limit |
| C06 | `Sudoku::solution` | from C03; soundness and the 8-digit shortcut proved; the 17-clue shortcut needs the McGuire-Tugemann-Civario computation, so the equivalence is `_partial` (hypothesis: at least 17 clues); `C06_solution_of_seventeen` derives the full claim from that result; `C06_few_clues` and `C06_gap_partial` close the gap for at most 7 clues, two missing digits, two empty rows of a band and two empty columns of a stack (a transformation that keeps the clues keeps the unique solution, `C06_kept`) |
| C07 | same, fuel and index checks | strictly decreasing measure on the previously seen masks; all index checks discharged from `mask < 2^27` |
| C08-C10 | `is_solved`, `n_clues`, `iter`, `to_bytes`, `from_bytes*` | bit-set accumulation over cells; direct |
| C11-C15 | line parser, both paths | induction over the bytes; UTF-8 boundary lemma |
| C16-C19 | block parsers and block printer | induction over lines and characters; C17's documented meaning of `NotEnoughRows` is false: negation with witness plus the true meaning |
| C20-C21 | serde visitors, `SudokuLine` order | from C10-C12; per-byte monotonicity |
| C22-C23 | `Transformation::apply/random` | each primitive swap acts as a permutation of cells that preserves houses |
| C24-C29 | canonicalisation | the enumeration covers every transformation whose first row is 1..9 and whose second row starts 4 5 (pigeonhole); remaining rows are sorted; C29's documented equivalence is false for unsolved puzzles with automorphisms: negation with witness plus the true direction |
| C30-C34, C36 | generate functions | fold invariant over any visiting order; C33's "invalid is returned as is" is false: negation with witness plus the true part |
| C35, C43 | `generator.rs` | solution-set invariant plus measure, any random choices; for a given grid the random numbers are chosen so that every guess agrees with it |
| C37-C38 | `positions.rs`, `bitset.rs` | kernel evaluation of complete tables; bit lemmas |
| C39 | `strategy/*` | every step of the solver relates the state before and after by a relation `Run`; `Run` keeps agreement with any given solution.  Each strategy: its pattern on the candidates implies that the conflicts are in no solution |
| C40, C49 | `solve` | the invariant `Sem` says what the caches mean; 81 solved cells that pass the checks on entry are a valid grid; unique because every step is sound for every solution |
| C41 | constructors, `solve` | no panic: index, slice and counter bounds are part of the invariant; termination: `gain` = entered digits + excluded candidates grows in every round and is bounded |
| C42, C44, C45 | `to_sudoku`, `cell_state`, `grid_state`, `insert_candidate`, `from_grid_state` | induction over the history of calls (`Reaches`), from `Sem` |
| C46-C48 | `Deductions` | the invariant `Log` ties each recorded deduction to its range in the list of exclusions and to its pattern; with C51 no entry replaces another digit |
| C50 | `solve` | a search that finds nothing visits every combination (`Quiet` relations for `walk`, `forUntil`); with the exact caches of `Sem` this says that there is no pattern |
| C51 | `solve` | relation `Grow`: the new entries are in empty cells of the solver's grid; a cell with a given digit that is not yet in that grid either has no candidates left or waits in the queue with at least two (first update of a new solver) |
| C52 | `solve` | relation `Grow`: a search that stops at its first find adds a list without repetitions of candidates that are not excluded yet (`Once`); the ranges of the deductions follow each other |
| C53 | constructors | direct; the kernel evaluates all 256 values of a `u8` |
| C54 | `Display` of `CellState` | the items of a bit set are the digits in it, in order |
| C55 | `Display` of `StrategySolver` | the invariant `W` gives totality; the text equals the table of the specification, line by line; splitting at whitespace gives the entries back |
| C56 | same | every entry is a given digit or a naked single of the entries before it, so what is not shown is `Ruled`; the invariant `Singles` (a cell with one candidate is entered in the grid) gives the other direction |
| C57 | `from_grid_state_str` (crate-internal) | reading inverts printing (C55); `Ruled` is the same for the grid state that was read (C56) |
| C58 | `is_solved` | the counter is the number of digits in the ghost grid of the caches (`Gh.count`), whose digits are entries; after an update all entries are processed (`Settled`). If an update fails, some cell is never counted (`Lost`, Proofs/StratLost) |
| C59 | `solve` with singles only | `Follows` is the closure under singles. Every entry follows by induction on the number of the deduction (C47, C48); what follows is entered by induction on `Follows`, since no single is left at the end (C50), or the grid is full (C49) |
| C60 | `errors.rs` (with the `Display` that `thiserror` derives) | the cell is below 81 by C13 and C17; messages are taken apart from the left, decimal numbers are injective |
| C61 | generate functions | C30, C31, C36 for one direction; for the other, the cells that are empty in the given puzzle are visited first: each removal keeps the given puzzle below, so it keeps uniqueness, and then nothing more can be removed; the full grid comes from C43 |
| C62 | `solver.rs` | relation between two runs with different limits: the list of the first is the beginning of that of the second (`Cut`); once the limit of the first is reached the second only adds (`Grows`) |
| C63 | both solvers | from C39, C40, C48, C62 |
| C64 | `solve` with any strategies | a pattern that matches some candidates still matches when candidates are taken away, or has become one of a simpler strategy or singles, or its exclusions are already done (`persist`). So by induction on the number of the deduction, what one run deduces is done when another run gives up (C47, C50) |
| C65 | `solve` | when a pass finds nothing new, all entries have been worked into the caches (`Step1.filled`); so a complete grid has 81 solved cells |
| C66 | `solve` | as C64, comparing with the end of the first run instead of a run from the same start (`nothing_new_under`) |
| C67 | `solve`, `shuffle` | a transformation takes houses to houses and the lines of one direction to those of one direction, so every pattern to a pattern of the same strategy (`Iso.transport`); then as C66 in both directions |
| C68 | `generate_with_symmetry_from` | from C31 and C61: removing fewer clues keeps uniqueness |
| C69 | `solve`, the lists of deductions and exclusions | only the first strategy can record an exclusion twice, and only in one pass, by deductions of different shape (`Passes`). These pairs of a shape and a candidate stay countable: for subsets by the sub- and supersets that are present in a house of a grid with a solution, for fish, locked candidates and wings by the possible shapes (`ExclCount`, `ExclRegion`); everything else is recorded once (`ExclTotal`) |
| C70 | `solve` with all subset or fish strategies | the cells of a house that hold a digit outside a naked subset, and these digits, form a hidden subset with the same conflicts, and the other way round; likewise for fish of rows and of columns (`Complement`). One of the two has at most four members, so C50 applies |
| C71 | `solve`, deductions | each call of a strategy adds deductions of this strategy only, and at most one unless it is the first (`Easier.deduce_marks`); the loop is followed, and the states before each deduction are kept with the facts that the strategies before found nothing (`Easier.solveLoop_easy`, with `StratIdle`); the candidates of that state are those of the specification (`Easier.leftBefore_eq`) |
| C72 | `solve`, deductions | what one call of a strategy adds shows its pattern on the candidates at the start of the call (`Shown.deduce_shows`); the loop is followed as for C71 (`Shown.solveLoop_seen`); for singles, the candidates of C47 include those left, and the digit entered is one of them (C39, C51) |
| C73 | `solve`, lists of strategies | both runs are followed together until the shorter one ends; from then on the longer one only appends (`More.solveLoop_more`); a solved sudoku has no candidates left, so by C72 and C51 nothing can be appended |
| C74 | `GridState` (crate-internal) | its parts are those of the table of C55 (`GridState.display_eq`); reading depends on the words of the text only |
| C75 | the work-in-progress function, its callback as a list | case analysis of the four corners (`rectangleAt_spec`); two digits in the corners of a rectangle in two blocks can be exchanged (`exchange`) |
| C76 | the work-in-progress file | the visited combinations correspond to the sublists of the cells of a house (`AlmostLocked.mem_visits`); the inner loops never fail, and the last index is out of range; counting |
| C77 | the work-in-progress file, the hash maps as the list of insertions | the set without the candidate has one element, none or more (`Links.linksTo_spec`); the positions of the three houses of a cell |
| C78 | `canonicalized`, `solve` | C24 gives the transformation, and it has the properties of C67 |
| C79 | `shuffle`, `canonicalized` | the draws are the transformations (C23), which are a group acting on the sudokus: orbit and stabilizer; those that fix a sudoku fix its only solution |
| C80 | `solve` with all strategies | induction on the derivation; when `solve` gives up no pattern is left (C50), and what a pattern says stays true when candidates disappear |
| C81 | both readers, `display_block` and the program | from the exact descriptions of both (C16, C18); the example by evaluation |
| C82 | all public functions returning a sudoku | induction on the calls with the theorems on each function; for `solve` an invariant of all functions of the strategy solver that needs no consistency |
| C83 | the program with `str::split` | the word Grid does not overlap with itself, so the pieces are unique; the loop by induction with C18 and C04 |
| C84 | `shuffle`, `canonicalized` | the automorphisms act freely on the 648 framed boxes; the grid that attains it has a family of affine automorphisms |
| C85 | `positions.rs` with `u8` and `u128` and overflow checks | equal to the functions of C37 by complete evaluation over all positions; the numbers out of range by arithmetic |
| C86 | the readers and `to_str_line` with `u8` counters and overflow checks | loop by loop equal to the functions of C11-C18; the counters stay at most 81 |
| C87 | canonicalization.rs with `u8` numbers, overflow checks and debug assertions | function by function a simulation of the model of C22-C24, which returns normally |
| C88 | `solve` | as for C50, a search that is not to stop at the first find visits every combination; the relation `Calm` follows one excluded candidate, so that other finds on the way do not matter |

## Findings: where the code does not do what is documented

Each is a theorem with a concrete witness unless marked (text).

* `NotEnoughRows` holds one more than the number of rows encountered: `C17_not_enough_rows_documentation_false`.
* Canonical forms of equivalent unsolved sudokus differ if the solution has automorphisms: `C29_unsolved_forms_differ`.
* `generate_from` does not return an unsolvable sudoku as is: `C33_documentation_false`.
* `grid_state` of a fresh solver shows candidates that are already in a house if the sudoku has a visible contradiction:
  `C42_stale_candidates`.
* `solve` returns `Ok` with an invalid grid if `cell_state` was called before on a contradictory sudoku
  (`C49_looked_false`) or if an excluded digit was inserted (`C49_excluded_false`).
* `solve` replaces a given digit by another one in the grid that it returns with `Err`, if `cell_state` was called before on
  a contradictory sudoku: `C48_overwritten_false`.
* With `NakedSingles` as the first strategy, solve gives up on sudokus that it solves with the same strategies in another
  order: `C50_naked_singles_first_false`.
* With `XyzWing` but without `XyWing` (the simpler variant), what `solve` finds depends on the order of the strategies:
  `C64_without_simpler_false`.
* With an empty list of strategies `solve` returns `Err` for a complete grid: `C65_no_strategies_false`.
* With another first strategy than singles, the same candidate is excluded by several deductions: `C52_repeated_false`.
* `is_mutant` in `mutant_fish.rs` is true for sets of houses of one type, that is for the basic fish; together with the
  condition that base and cover have the same cells no deduction is ever made: by `C47_explained` no deduction of `solve`
  on a sudoku with a solution is a mutant fish.
* `AvoidableRectangles` panics: `C41_avoidable_rectangles`.
* The unused function `find_almost_locked_sets` panics for all inputs: `C76_panics`.
* The unused function `find_direct_links` leaves out the links in houses of candidates in cells with two candidates:
  `C77_both_directions_false`.
* `Cell::new` and the other constructors of positions are documented to panic out of range, but only a `debug_assert!`
  checks it: `C53_release_false`.
* `Position::new` accepts every number, and `cell_at` then returns cells outside of the row (`C85_position_false`); without
  debug assertions sets of cells can hold numbers that are no cells (`C85_release_false`).
* The counter of processed exclusions is said not to exceed 2^8; for some grid states it does: `C69_comment_false`.
* `to_string` of a `StrategySolver` shows candidates that are ruled out by a naked single if `cell_state` was called
  before: `C56_looked_false`.
* `is_solved` is documented to check whether the sudoku is solved; for a solver that was just made it is false even if all
  cells are filled: `C58_new_false`.
* The message of `InvalidLineLength` prints the index of the row where it should print the number of entries, and the
  message of `NotEnoughRows` says that nine rows were found if there are eight: `C60_line_length_false`,
  `C60_rows_false`.
* The program `examples/example.rs` panics: the pipes in its text are not ignored: `C81_example_false`.
* `from_str_block` and `from_str_block_permissive` read different sudokus from a text with digits after a horizontal field
  delimiter: `C81_misread_false`.
* `insert_candidate` is documented to fail if the cell is filled; it succeeds if it holds the same digit:
  `C44_insert_candidate`.
* (text) In `_update_cell_poss_house_solved`, `new_eliminations` is always false (the comparison is the wrong way round).
* (text) `find_naked_singles` records each digit twice in the list of entries (the second entry is ignored).
* (text) The counters of processed exclusions are `u16`; after 65536 exclusions a wrapped counter would hide new ones.  For
  sudokus with a solution there are fewer (C69); for contradictory grid states there can be more.

## Not modelled

* `Debug`, `Hash`, `Clone` derives.
* The field `clues` of the strategy solver (stored, never read).
* The random number generators themselves: `shuffle` and `gen_range` of the crate `rand` are modelled by arbitrary
  permutations and numbers in range.  serde: the visitors are modelled, the data formats are not.
* Rust's memory model and `unsafe`: the feature `unchecked_indexing` turns the index checks of the fast solver off; C07
  shows that none of them fails.

## Validation of the model

`lean/Verif/RepoTests.lean` repeats the repository's own tests (`tests/lib.rs` and the tests in `src`) and the Project
Euler example with the functions of the model, on the files in `/repo/sudokus`; all of them pass.  No theorem depends on
it.  Run it with `lake env lean --run Verif/RepoTests.lean` in `lean` (one minute).  Among the results: the fast solver
finds the listed solutions of all 81 sudokus; the strategy solver with all strategies solves all easy and all but the
ninth medium sudoku, as the test in `src/strategy/solver.rs` says; the wings are found with the expected hinge, pincers
and conflicts; the printed grid states are the expected texts; the most symmetric grid has 648 automorphisms.

## Trusted base

* Lean's kernel, and the axioms `propext`, `Classical.choice`, `Quot.sound`.  Every theorem `CNN_*` depends on at most
  these three (checked with `collectAxioms` over all of them); there is no `sorry`, no own axiom, no `native_decide` and no
  `bv_decide`.
* The transcription of the Rust code into the model, which cites the lines it follows (see the validation above), and of the parts of the Rust
  standard library that are used: `str::lines`, `char` and UTF-8, slices, `Vec`, integer operations (`Spec/Text.lean`
  and the comments in the model).
* The specification files listed above.
