{"id": "C01", "title": "solutions_up_to returns exactly the solutions, up to the limit", "statement": "Sudoku::solutions_up_to(limit) returns a list without repetitions in which every entry is a valid completed grid that agrees with every clue, and whose length is the smaller of `limit` and the total number of such completed grids. In particular, if limit is at least the number of solutions, the list contains every solution exactly once, and if it is empty with limit > 0 the sudoku has no solution.", "quantifier": "every 81-cell sudoku with entries 0..9 (consistent or not) and every limit", "why_tests_cant": "There are 10^81 inputs and the search is a hand-optimised bit-parallel propagation with lookup tables; a lost or duplicated solution on some input is invisible to sample puzzles.", "anchors": ["src/solver.rs: SudokuSolver::solutions_up_to, _solve, guess", "src/board/sudoku.rs: Sudoku::solutions_up_to"]}
{"id": "C02", "title": "solutions_count_up_to counts exactly", "statement": "Sudoku::solutions_count_up_to(limit) equals the smaller of `limit` and the number of valid completed grids extending the clues, and equals the length of the list returned by solutions_up_to(limit).", "quantifier": "every sudoku with entries 0..9 and every limit (including 0)", "why_tests_cant": "Counting is a separate mode of the same search; agreement for all puzzles and limits cannot be sampled.", "anchors": ["src/solver.rs: SudokuSolver::solutions_count_up_to", "src/board/sudoku.rs: Sudoku::solutions_count_up_to"]}
{"id": "C03", "title": "solutions_up_to_buffer writes the first solutions and touches nothing else", "statement": "Sudoku::solutions_up_to_buffer(target, limit) returns min(limit, number of solutions); slot i of the buffer holds the i-th solution of solutions_up_to(limit) for every i below both the returned count and the buffer length, and all other slots keep their old content. No write happens outside the buffer.", "quantifier": "every sudoku, every buffer length and content, every limit", "why_tests_cant": "Buffer may be shorter or longer than the number of solutions; all combinations of lengths, limits and puzzles are unbounded.", "anchors": ["src/solver.rs: SudokuSolver::solutions_up_to_buffer, guess", "src/board/sudoku.rs: Sudoku::solutions_up_to_buffer"]}
{"id": "C04", "title": "some_solution finds a solution iff one exists", "statement": "Sudoku::some_solution returns None exactly when no valid completed grid extends the clues, and otherwise returns one that does.", "quantifier": "every sudoku with entries 0..9", "why_tests_cant": "Completeness ('None means none exists') quantifies over all completed grids.", "anchors": ["src/board/sudoku.rs: Sudoku::some_solution"]}
{"id": "C05", "title": "is_uniquely_solvable decides unique solvability", "statement": "Sudoku::is_uniquely_solvable is true exactly when there is one and only one valid completed grid extending the clues.", "quantifier": "every sudoku with entries 0..9", "why_tests_cant": "Uniqueness quantifies over all completed grids.", "anchors": ["src/board/sudoku.rs: Sudoku::is_uniquely_solvable"]}
{"id": "C06", "title": "solution returns the unique solution", "statement": "Sudoku::solution returns Some(t) exactly when t is the only valid completed grid extending the clues. (The code answers None without searching when there are fewer than 17 clues or fewer than 8 distinct digits, so the 'exactly when' relies on those sudokus never being uniquely solvable.)", "quantifier": "every sudoku with entries 0..9", "why_tests_cant": "Both the correctness of the shortcut and of the search range over all puzzles.", "anchors": ["src/board/sudoku.rs: Sudoku::solution"]}
{"id": "C07", "title": "the fast solver always terminates without panicking", "statement": "For every sudoku and limit the backtracking search behind solutions_up_to, solutions_count_up_to, solutions_up_to_buffer, some_solution, solution and is_uniquely_solvable finishes after finitely many steps and never indexes a table or board array out of bounds, shifts out of range or overflows.", "quantifier": "every sudoku with entries 0..9, every limit, every reachable solver state", "why_tests_cant": "Non-termination or an out-of-range index in the unbounded digit loop would only show on particular search states.", "anchors": ["src/solver.rs: find_locked_candidates_and_update, _solve, guess_bivalue_in_cell, guess_some_cell"]}
{"id": "C08", "title": "is_solved recognises exactly the valid completed grids", "statement": "Sudoku::is_solved is true exactly when every cell holds a digit 1..9 and every row, column and block contains each digit exactly once.", "quantifier": "every sudoku with entries 0..9", "why_tests_cant": "10^81 grids.", "anchors": ["src/board/sudoku.rs: Sudoku::is_solved", "src/board/positions.rs: Cell::row, Cell::col, Cell::block"]}
{"id": "C09", "title": "n_clues, iter and to_bytes report the cells faithfully", "statement": "to_bytes(from_bytes(b)) = b; iter yields 81 items, None for 0 and Some(n) for n; n_clues is the number of non-zero cells and never overflows its u8.", "quantifier": "every sudoku with entries 0..9", "why_tests_cant": "All grids.", "anchors": ["src/board/sudoku.rs: Sudoku::iter, to_bytes, n_clues"]}
{"id": "C10", "title": "from_bytes and from_bytes_slice accept exactly the well-formed inputs", "statement": "from_bytes(b) succeeds iff all 81 bytes are at most 9 and then stores them unchanged; from_bytes_slice reports WrongLength(len) iff the length is not 81 (whatever the content), the entry error iff the length is 81 and some byte exceeds 9, and otherwise the same sudoku as from_bytes.", "quantifier": "every byte sequence of every length", "why_tests_cant": "All byte strings.", "anchors": ["src/board/sudoku.rs: from_bytes, from_bytes_slice, _from_bytes"]}
{"id": "C11", "title": "line format round-trips", "statement": "Parsing the line format of a sudoku gives the sudoku back, also when any comment separated by one of ' ', '\\t', '\\n', '\\r', ',', ';' follows; '_', '.' and '0' are interchangeable for empty cells.", "quantifier": "every sudoku, every choice of placeholder per cell, every delimiter, every following text", "why_tests_cant": "All grids, placeholders and comments.", "anchors": ["src/board/sudoku.rs: from_str_line, _from_str_line_fast_path, to_str_line"]}
{"id": "C12", "title": "from_str_line accepts exactly the documented language", "statement": "from_str_line(s) succeeds iff s has at least 81 bytes, the first 81 are each one of '0'..'9', '.', '_' and the 82nd (if any) is one of the six delimiters; the value of each cell is then the digit written (0 for '.', '_', '0').", "quantifier": "every UTF-8 string", "why_tests_cant": "All strings.", "anchors": ["src/board/sudoku.rs: from_str_line"]}
{"id": "C13", "title": "from_str_line reports the documented error", "statement": "On failure from_str_line reports: InvalidEntry with the index and the character of the first byte among the first 81 that is not a cell, space or tab; NotEnoughCells(i) if a space, a tab or the end of the string is met first after i cells; otherwise TooManyCells if the 82nd byte is again a valid cell and MissingCommentDelimiter if it is anything else that is not a delimiter.", "quantifier": "every UTF-8 string", "why_tests_cant": "All malformed strings.", "anchors": ["src/board/sudoku.rs: from_str_line", "src/errors.rs: LineParseError, InvalidEntry"]}
{"id": "C14", "title": "the fast parsing path is unobservable", "statement": "from_str_line returns the same result (sudoku or error) as the full parser run without the fast path.", "quantifier": "every UTF-8 string", "why_tests_cant": "The fast path maps bytes by wrapping subtraction; a byte such as 'h' aliasing a digit would be a silent wrong parse for untested bytes.", "anchors": ["src/board/sudoku.rs: _from_str_line_fast_path, from_str_line"]}
{"id": "C15", "title": "from_str_line never panics on non-ASCII input", "statement": "The slice s[i..] taken to report an invalid character always starts at a character boundary and is non-empty, so from_str_line never panics and reports the actual character.", "quantifier": "every UTF-8 string, including multi-byte characters at every position", "why_tests_cant": "All Unicode strings.", "anchors": ["src/board/sudoku.rs: from_str_line"]}
{"id": "C16", "title": "from_str_block reads bare and delimited blocks", "statement": "Nine lines holding the rows of a sudoku (digits, or '_', '.', '0' for empties), optionally with '|' after the third and sixth cell and '-----------' or '---+---+---' lines between bands, each line optionally followed by space or tab and any comment, are parsed to that sudoku, also if a blank line and further text follow.", "quantifier": "every sudoku, every placeholder choice, every comment on every line, every text after a blank line", "why_tests_cant": "All grids and comments.", "anchors": ["src/board/sudoku.rs: from_str_block"]}
{"id": "C17", "title": "from_str_block rejects everything else, with the documented error", "statement": "from_str_block never panics; whenever it succeeds the input has the documented bare or delimited shape; the error values identify row and cell as documented (InvalidEntry cell index and character, InvalidLineLength row, MissingCommentDelimiter row, IncorrectFieldDelimiter, TooManyRows, NotEnoughRows with the number of rows encountered).", "quantifier": "every string", "why_tests_cant": "All strings.", "anchors": ["src/board/sudoku.rs: from_str_block", "src/errors.rs: BlockParseError"]}
{"id": "C18", "title": "from_str_block_permissive reads the first nine lines holding nine cells", "statement": "from_str_block_permissive ignores every line with fewer than nine cell characters, reads the first nine cell characters of each other line, returns the sudoku made of the first nine such lines and ignores everything after; if there are only n < 9 such lines it returns NotEnoughRows(n).", "quantifier": "every string", "why_tests_cant": "All strings.", "anchors": ["src/board/sudoku.rs: from_str_block_permissive"]}
{"id": "C19", "title": "the printed block can be read back", "statement": "Parsing the output of display_block with from_str_block_permissive returns the original sudoku.", "quantifier": "every sudoku with entries 0..9", "why_tests_cant": "All grids.", "anchors": ["src/board/sudoku.rs: display_block, SudokuBlock::fmt, from_str_block_permissive"]}
{"id": "C20", "title": "serde round-trips in both representations", "statement": "Serialising and deserialising a sudoku with a human-readable format goes through the 81-character line and with a binary format through the 81 bytes; both give the sudoku back, and the binary visitor rejects any other length or any byte above 9.", "quantifier": "every sudoku; every byte string offered to the binary visitor; every string offered to the text visitor", "why_tests_cant": "All grids and all foreign inputs.", "anchors": ["src/board/sudoku.rs: Serialize, Deserialize, ByteSudoku, StrSudoku"]}
{"id": "C21", "title": "line strings are ordered like the sudokus, and are valid text", "statement": "The derived order on SudokuLine agrees with the derived (lexicographic) order on Sudoku, equality agrees too, and the line is always 81 ASCII characters, so the conversion to &str never panics.", "quantifier": "every pair of sudokus", "why_tests_cant": "All pairs of grids.", "anchors": ["src/board/sudoku.rs: SudokuLine, to_str_line"]}
{"id": "C22", "title": "shuffling preserves validity and the number of solutions", "statement": "For every transformation that shuffle can draw, the result has the same number of clues, it has exactly as many solutions as the input (its solutions are the transformed solutions of the input), is uniquely solvable iff the input is, and is solved iff the input is.", "quantifier": "every sudoku, every outcome of the random choices", "why_tests_cant": "1.2*10^12 transformations times all sudokus.", "anchors": ["src/board/sudoku.rs: shuffle, shuffled", "src/board/canonicalization.rs: Transformation::apply, Transformation::random"]}
{"id": "C23", "title": "shuffle can reach every relabelling exactly once", "statement": "The digit relabelling drawn from a number in 0..362880 is always a permutation of 1..9, and distinct numbers give distinct permutations (so every permutation is equally likely); distinct choices of transposition, band, stack, row and column permutations move the cells differently, giving 2*6^8 cell rearrangements.", "quantifier": "every random number in range, every combination of choices", "why_tests_cant": "The full space has 1.2*10^12 elements; bijectivity is a statement about all of it.", "anchors": ["src/board/canonicalization.rs: Transformation::random, Permutation3"]}
{"id": "C24", "title": "canonicalized is defined for uniquely solvable sudokus and returns an equivalent sudoku", "statement": "Sudoku::canonicalized returns None unless the sudoku has exactly one solution, returns Some for every solved grid, never panics, and the returned sudoku is obtained from the input by relabelling digits and by row, column, band, stack permutations and transposition.", "quantifier": "every sudoku with entries 0..9", "why_tests_cant": "All grids; the search unwraps positions that must exist.", "anchors": ["src/board/sudoku.rs: canonicalized", "src/board/canonicalization.rs: find_canonical_sudoku_and_transformation"]}
{"id": "C25", "title": "the canonical form of a solved grid is the lexicographic minimum of its class", "statement": "For a solved grid, the sudoku returned by canonicalized is less than or equal to every grid obtainable from the input by any combination of relabelling, transposition, and band, stack, row and column permutations.", "quantifier": "every solved grid and every one of the 2*9!*6^8 transformations", "why_tests_cant": "6.67*10^21 grids times 1.2*10^12 transformations; the code only searches a pruned part of the space.", "anchors": ["src/board/canonicalization.rs: find_minlex_band_transformation, find_minimal_transformation_for_band", "src/board/sudoku.rs: canonicalized"]}
{"id": "C26", "title": "canonical form decides equivalence of solved grids", "statement": "Two solved grids have the same canonical form if and only if one can be transformed into the other; canonicalising twice equals canonicalising once.", "quantifier": "every pair of solved grids", "why_tests_cant": "All pairs of grids.", "anchors": ["src/board/sudoku.rs: canonicalized"]}
{"id": "C27", "title": "the automorphism count is the number of transformations fixing the grid", "statement": "For a solved grid the count returned by canonicalized is exactly the number of transformations (out of 2*9!*6^8) that map the grid to itself, hence at least 1.", "quantifier": "every solved grid", "why_tests_cant": "Counts over the whole transformation group for every grid.", "anchors": ["src/board/canonicalization.rs: find_canonical_sudoku_and_transformation", "src/board/sudoku.rs: canonicalized"]}
{"id": "C28", "title": "canonicalising commutes with solving", "statement": "If canonicalized(p) = (q, n) then q is uniquely solvable and the solution of q is the canonical form of the solution of p, with the same automorphism count.", "quantifier": "every uniquely solvable sudoku", "why_tests_cant": "All puzzles.", "anchors": ["src/board/sudoku.rs: canonicalized, solution"]}
{"id": "C29", "title": "canonical forms and equivalence of unsolved puzzles", "statement": "Documented: canonicalized 'allows to check whether two sudokus are equivalent. It can be used both for solved and unsolved puzzles', i.e. equal canonical forms iff equivalent.", "quantifier": "every pair of uniquely solvable sudokus", "why_tests_cant": "All pairs of puzzles.", "anchors": ["src/board/sudoku.rs: canonicalized (doc comment)"]}
{"id": "C30", "title": "generating from a uniquely solvable sudoku keeps the solution", "statement": "generate_from / generate_with_symmetry_from on a uniquely solvable sudoku returns a uniquely solvable sudoku with the same solution, whose clues are a subset of the input's clues.", "quantifier": "every uniquely solvable sudoku, every symmetry, every shuffle of the visiting order", "why_tests_cant": "81! orders times all puzzles.", "anchors": ["src/board/sudoku.rs: generate_with_symmetry_and_rng_from"]}
{"id": "C31", "title": "generated puzzles are minimal", "statement": "In the sudoku returned by the generate functions from a uniquely solvable sudoku, removing the clues of any symmetry class that still holds a clue destroys uniqueness; with Symmetry::None no single clue can be removed.", "quantifier": "every uniquely solvable sudoku, every symmetry, every visiting order", "why_tests_cant": "Minimality is checked against all removals and all orders.", "anchors": ["src/board/sudoku.rs: generate_with_symmetry_and_rng_from"]}
{"id": "C32", "title": "generated puzzles have the requested symmetry", "statement": "If the input's set of filled cells is symmetric (for instance a full grid), the output's set of filled cells is mapped to itself by the mirror or rotation named by the symmetry.", "quantifier": "every sudoku, every symmetry, every visiting order", "why_tests_cant": "All inputs and orders.", "anchors": ["src/board/sudoku.rs: Symmetry::corresponding_cells, generate_with_symmetry_and_rng_from"]}
{"id": "C33", "title": "generating from sudokus that are not uniquely solvable", "statement": "Documented: 'If the source sudoku is invalid or has multiple solutions, it will be returned as is.'", "quantifier": "every sudoku with zero or at least two solutions, every symmetry, every order", "why_tests_cant": "All such inputs.", "anchors": ["src/board/sudoku.rs: generate_with_symmetry_and_rng_from (doc comment)"]}
{"id": "C34", "title": "symmetry classes are the orbits of the named mirrors and rotations", "statement": "For each Symmetry and cell, the cells that are filled or emptied together are exactly the cells reachable from it by the mirrors and rotations named in the documentation; classes partition the board.", "quantifier": "every symmetry and every cell", "why_tests_cant": "Finite, but the statement is an equivalence with an independently defined orbit for all cells; the repository tests only compare the table with itself.", "anchors": ["src/board/sudoku.rs: Symmetry::corresponding_cells"]}
{"id": "C35", "title": "generate_solved always returns a solved grid", "statement": "Whatever the random number generator returns, generate_solved terminates, does not panic and returns a valid completed grid whose first row is the drawn permutation.", "quantifier": "every sequence of random choices", "why_tests_cant": "The randomized search has astronomically many runs.", "anchors": ["src/generator.rs: SudokuGenerator::generate_solved, randomized_solve_one", "src/board/sudoku.rs: generate_solved_with_rng"]}
{"id": "C36", "title": "generate returns a symmetric minimal uniquely solvable puzzle", "statement": "Sudoku::generate and generate_with_symmetry return, for all random choices, a uniquely solvable puzzle with the requested symmetry that is minimal in its symmetry classes.", "quantifier": "every sequence of random choices and every symmetry", "why_tests_cant": "All random runs.", "anchors": ["src/board/sudoku.rs: generate, generate_with_symmetry"]}
{"id": "C37", "title": "position arithmetic and neighbour tables match the geometry of the board", "statement": "row, col and block of a cell, the cells of each house, the position of a cell within its row, column and block, the 20 neighbours of a cell, the minilines of a cell and the neighbouring minilines are those of the 9x9 board.", "quantifier": "every cell, house, line, miniline", "why_tests_cant": "Hand-written and precomputed tables; equality with the geometric definition for all entries is a statement about the whole table and is used by every other proof.", "anchors": ["src/board/positions.rs: Cell, Row, Col, Line, Block, House, MiniRow, MiniCol, MiniLine", "src/bitset.rs"]}
{"id": "C38", "title": "digit, cell and position sets behave as finite sets", "statement": "Set<T> operations (union, intersection, symmetric difference, complement, without, remove, contains, overlaps, len, is_empty, is_full, unique, iteration) agree with the mathematical set operations; iteration yields each element exactly once in increasing order and nothing else; unique distinguishes empty, singleton and larger sets.", "quantifier": "every pair of sets of digits, positions, cells, houses, lines", "why_tests_cant": "Set<Cell> alone has 2^81 values.", "anchors": ["src/bitset.rs: Set, Iter"]}
{"id": "C39", "title": "every deduction of the strategy solver is sound", "statement": "Whatever sequence of strategies is run on a StrategySolver built from a sudoku, no candidate that occurs in some solution of that sudoku is ever eliminated and no digit is ever entered that differs from that solution.", "quantifier": "every sudoku, every list of strategies, every reachable state, every solution", "why_tests_cant": "All puzzles, all strategy orders.", "anchors": ["src/strategy/solver.rs: StrategySolver", "src/strategy/strategies/*.rs"]}
{"id": "C40", "title": "StrategySolver::solve only reports true solutions", "statement": "If StrategySolver::solve returns Ok((s, _)) then s is a valid completed grid containing the input clues and it is the only solution of the input sudoku.", "quantifier": "every sudoku and every list of strategies", "why_tests_cant": "All puzzles and strategy lists.", "anchors": ["src/strategy/solver.rs: StrategySolver::solve, try_solve"]}
{"id": "C41", "title": "StrategySolver::solve terminates without panicking", "statement": "StrategySolver::from_sudoku(s).solve(strategies) terminates and does not panic for every sudoku and every list of implemented strategies; an inconsistent sudoku gives Err.", "quantifier": "every sudoku with entries 0..9, every list of strategies except AvoidableRectangles", "why_tests_cant": "All puzzles; several unwraps, asserts and unreachable! calls depend on invariants.", "anchors": ["src/strategy/solver.rs: StrategySolver::solve", "src/strategy/deduction.rs: Deduction::strategy"]}
{"id": "C42", "title": "the grid state exposed by the strategy solver is faithful", "statement": "to_sudoku returns the clues plus entered digits; cell_state and grid_state report a digit exactly for entered cells and otherwise the remaining candidates, and for a fresh solver the candidates of an empty cell are exactly the digits not yet present in its row, column and block.", "quantifier": "every sudoku, every cell", "why_tests_cant": "All grids.", "anchors": ["src/strategy/solver.rs: to_sudoku, grid_state, cell_state, from_sudoku"]}
{"id": "C43", "title": "generate_solved can return every valid completed grid", "statement": "For every valid completed grid there are random choices for which generate_solved returns exactly that grid.", "quantifier": "every valid completed grid", "why_tests_cant": "There are about 6.67e21 completed grids.", "anchors": ["src/generator.rs: SudokuGenerator::generate_solved, find_good_random_guess", "src/board/sudoku.rs: generate_solved"]}
{"id": "C44", "title": "insert_candidate enters a digit or refuses", "statement": "insert_candidate returns Ok exactly if the cell is empty or already holds that digit; afterwards to_sudoku shows that digit in the cell and nothing else has changed. Otherwise it returns Err and to_sudoku is unchanged.", "quantifier": "every history of calls of the public methods of a StrategySolver, every cell and digit", "why_tests_cant": "All histories.", "anchors": ["src/strategy/solver.rs: insert_candidate, push_new_candidate, to_sudoku"]}
{"id": "C45", "title": "grid_state and from_grid_state are inverse", "statement": "A StrategySolver made with from_grid_state from the grid_state of another one has the same digits, the same grid_state and the same solutions, as long as no contradiction is visible.", "quantifier": "every history of calls of the public methods without visible contradiction", "why_tests_cant": "All histories and grid states.", "anchors": ["src/strategy/solver.rs: from_grid_state, grid_state"]}
{"id": "C46", "title": "the returned deductions can be read", "statement": "Deductions::get and Deductions::iter never panic on the deductions returned by solve, agree with each other and with len and is_empty; Deduction::strategy returns for each of them one of the strategies that were passed to solve.", "quantifier": "every sudoku, every list of strategies, every index", "why_tests_cant": "All runs of the solver; strategy() contains unreachable!() arms and the eliminated candidates are stored as index ranges into another vector.", "anchors": ["src/strategy/deduction.rs: Deductions::get, iter, len, is_empty, Deduction::strategy"]}
{"id": "C47", "title": "every deduction shows the pattern its strategy is named after", "statement": "If the sudoku has a solution, then every deduction returned by solve is an instance of the pattern (single, locked candidates, subset, fish, wing) of one of the passed strategies on the candidates that are left by clues, exclusions and earlier deductions, and the listed conflicts are exactly the candidates that the pattern excludes.", "quantifier": "every sudoku with a solution, every list of strategies, every deduction", "why_tests_cant": "All puzzles and strategy lists.", "anchors": ["src/strategy/solver.rs: StrategySolver::solve, find_*", "src/strategy/strategies/*.rs", "src/strategy/deduction.rs: Deduction"]}
{"id": "C48", "title": "the deductions account for the returned grid", "statement": "The grid returned by solve, with Ok or with Err, consists of exactly the given digits and the entries of the returned deductions, also if the sudoku is unsolvable.", "quantifier": "every history of calls in which cell_state was not called while a contradiction was visible, every list of strategies", "why_tests_cant": "All puzzles and strategy lists.", "anchors": ["src/strategy/solver.rs: StrategySolver::solve, push_new_candidate, update_grid", "src/strategy/deduction.rs: Deductions"]}
{"id": "C49", "title": "solve only reports true solutions after any use of the solver", "statement": "After any calls of from_sudoku or from_grid_state, to_sudoku, grid_state, cell_state and insert_candidate: if solve returns Ok, the grid is a valid completed grid that contains all given and inserted digits and no excluded candidate, and no other grid does.", "quantifier": "every history of calls, every list of strategies", "why_tests_cant": "All histories.", "anchors": ["src/strategy/solver.rs: StrategySolver"]}
{"id": "C50", "title": "solve gives up only when its strategies find nothing", "statement": "If solve returns Err for a sudoku with a solution, then no pattern of a passed strategy that would enter a digit or exclude a candidate is left.", "quantifier": "every sudoku with a solution, every list of strategies", "why_tests_cant": "All puzzles, all strategy lists; incomplete searches show up only on particular boards.", "anchors": ["src/strategy/solver.rs: try_solve, find_*", "src/strategy/strategies.rs: Strategy::deduce", "src/strategy/strategies/*.rs"]}
{"id": "C51", "title": "no cell is entered twice", "statement": "A deduction returned by solve enters a digit only in a cell that was empty when solve was called, and no two of the deductions enter a digit in the same cell.", "quantifier": "every history of calls of the public methods of a StrategySolver (also with contradictory sudokus), every list of strategies", "why_tests_cant": "All histories and strategy lists; new entries pass through several caches that are updated at different times.", "anchors": ["src/strategy/solver.rs: StrategySolver::solve, push_new_candidate, insert_entries, find_naked_singles, find_hidden_singles", "src/strategy/deduction.rs: Deductions"]}
{"id": "C52", "title": "no candidate is excluded twice", "statement": "No candidate is in the conflicts of two deductions returned by solve, or twice in the conflicts of one, or in the conflicts of a deduction although it was excluded before solve was called.", "quantifier": "every history of calls of the public methods of a StrategySolver, every list of strategies", "why_tests_cant": "All histories and strategy lists; a search works on caches that do not yet contain what it has just excluded.", "anchors": ["src/strategy/solver.rs: StrategySolver::solve, try_solve, find_*, enter_conflicts", "src/strategy/strategies/*.rs", "src/strategy/deduction.rs: Deductions"]}
{"id": "C53", "title": "the constructors of digits, positions and candidates accept exactly the valid numbers", "statement": "new_checked of Digit, Cell, Row, Col, Block, Line, House, MiniRow, MiniCol, MiniLine, Band, Stack and Chute returns a value exactly for the numbers of that type that exist in a sudoku, new and Candidate::new panic exactly for the others, get returns the number that was given, and all lists every value once in increasing order.", "quantifier": "every u8, every type, builds with and without debug assertions", "why_tests_cant": "All types and numbers, and both kinds of builds.", "anchors": ["src/board/digit.rs: Digit", "src/board/positions.rs: define_types", "src/board/candidate.rs: Candidate::new"]}
{"id": "C54", "title": "a cell state is printed as its digits", "statement": "to_string of a CellState gives the digit, or the candidates in increasing order, or an underscore if there are none; a format width is filled up with spaces on the right; cells with different digits or candidates have different texts.", "quantifier": "every cell state, every format width", "why_tests_cant": "All sets of candidates and widths.", "anchors": ["src/board/cell_state.rs: Display for CellState"]}
{"id": "C55", "title": "a strategy solver is printed as a table", "statement": "to_string of a StrategySolver never panics and gives thirteen lines of equal length: a table with frame whose columns are as wide as their widest entry, with the entries of the cells in reading order.", "quantifier": "every history of calls of the public methods of a StrategySolver (also with contradictory sudokus)", "why_tests_cant": "All histories; the column widths depend on the number of candidates and are computed in u8.", "anchors": ["src/strategy/solver.rs: Display for StrategySolver, update_for_grid_state_str, print_grid_state, _print_separator"]}
{"id": "C56", "title": "the table shows the candidates that elimination leaves", "statement": "The table shows for every cell exactly the digits that are not ruled out by elimination: a digit is ruled out in a cell if it was excluded, if the cell was given another digit, or if a cell in the same row, column or block has no other digit left. In particular the digits of every solution are shown.", "quantifier": "every history of calls of the public methods of a StrategySolver with a sudoku that has a solution", "why_tests_cant": "All sudokus and histories; singles follow from singles to any depth.", "anchors": ["src/strategy/solver.rs: Display for StrategySolver, update_for_grid_state_str, _batch_remove_conflicts_no_check, grid_state"]}
{"id": "C57", "title": "the printed table can be read back", "statement": "The solver that is made from the text of a solver has the same solutions. If cell_state was not called on the old one, it prints the same text.", "quantifier": "every history of calls of the public methods of a StrategySolver with a sudoku that has a solution", "why_tests_cant": "All sudokus and histories.", "anchors": ["src/strategy/solver.rs: from_grid_state_str, Display for StrategySolver, from_grid_state"]}
{"id": "C58", "title": "is_solved is true only for a complete and correct grid", "statement": "If is_solved of a StrategySolver returns true, every cell has been given a digit and no digit is repeated in a row, column or block, whatever was called before and even if contradictory digits were entered. Right after a call of cell_state, is_solved returns true exactly in that case, unless a digit was entered that had been excluded.", "quantifier": "every history of calls of the public methods of a StrategySolver", "why_tests_cant": "All histories; is_solved reads a counter that is updated together with the caches.", "anchors": ["src/strategy/solver.rs: StrategySolver::is_solved, cell_state, update_cell_poss_house_solved"]}
{"id": "C59", "title": "singles enter exactly what follows by singles", "statement": "solve with the strategies NakedSingles and HiddenSingles enters exactly the digits that follow from the given digits and exclusions by repeatedly entering the only digit left in a cell or the only cell left for a digit in a row, column or block. So it does not depend on the order or number of the strategies in the list (if NakedSingles is not only the first), and with more clues or exclusions never fewer digits are entered.", "quantifier": "every history of calls of the public methods of a StrategySolver with a sudoku that has a solution, every list of these two strategies that contains both and NakedSingles not only as the first", "why_tests_cant": "All sudokus and orders; the chains of singles have any length up to 81 and the digits are found in an order that depends on the caches.", "anchors": ["src/strategy/solver.rs: StrategySolver::solve, try_solve, find_naked_singles, find_hidden_singles, update_cell_poss_house_solved, update_house_poss_positions"]}
{"id": "C60", "title": "parse errors name the place and the fault", "statement": "The cell of an InvalidEntry returned by from_str_line or from_str_block exists, and its row, col and block methods return the row, column and block of that cell counted from 0, without panicking. Different errors of a parser have different messages, and the numbers in the messages are the numbers of entries, rows or bytes found.", "quantifier": "every text and every byte slice", "why_tests_cant": "All texts; the numbers are counters of the parsers.", "anchors": ["src/errors.rs: InvalidEntry, LineParseError, BlockParseError, NotEnoughRows, FromBytesSliceError, FromBytesError", "src/board/positions.rs: row, col, block, BLOCK"]}
{"id": "C61", "title": "exactly the minimal puzzles are generated", "statement": "The possible outcomes of generate_with_symmetry over all random choices are exactly the uniquely solvable sudokus whose clues have the symmetry and from which no set of corresponding clues can be removed without losing uniqueness; those of generate are the ones for half a turn. The possible outcomes of generate_with_symmetry_from for a uniquely solvable sudoku are exactly such sudokus that arise from it by emptying whole sets of corresponding cells.", "quantifier": "every symmetry, every uniquely solvable sudoku to start from, every sudoku as an outcome", "why_tests_cant": "That every minimal puzzle can come up is a claim about all puzzles and all random choices; sampling never settles it.", "anchors": ["src/board/sudoku.rs: generate, generate_with_symmetry, generate_from, generate_with_symmetry_from", "src/generator.rs: SudokuGenerator::generate"]}
{"id": "C62", "title": "one order of the solutions for all limits", "statement": "The solutions of a sudoku have one order: solutions_up_to(limit) returns the first ones in this order, as many as the limit allows; solutions_up_to_buffer writes the same ones and some_solution returns the first. So a smaller limit gives a prefix of what a larger limit gives.", "quantifier": "every sudoku, every pair of limits, every buffer", "why_tests_cant": "All sudokus and pairs of limits; the search stops at different places for different limits.", "anchors": ["src/board/sudoku.rs: solutions_up_to, solutions_up_to_buffer, solutions_count_up_to, some_solution", "src/solver.rs: SudokuSolver::solve, guess, guess_bivalue_in_cell, guess_some_cell"]}
{"id": "C63", "title": "the two solvers agree", "statement": "The grid that StrategySolver::solve returns, with Ok or with Err, contains all clues and has exactly the solutions of the sudoku, so the fast solver counts the same number of solutions before and after. If solve returns Ok, is_uniquely_solvable is true and solutions_up_to, some_solution and (with at least 17 clues) solution return the same grid. If is_uniquely_solvable is false, solve returns Err.", "quantifier": "every sudoku, every list of strategies, every limit", "why_tests_cant": "All sudokus; the two solvers share no code.", "anchors": ["src/strategy/solver.rs: StrategySolver::from_sudoku, solve", "src/board/sudoku.rs: solutions_up_to, solutions_count_up_to, some_solution, solution, is_uniquely_solvable"]}
{"id": "C64", "title": "the order of the strategies does not matter", "statement": "With lists of strategies that contain both kinds of singles (NakedSingles not only in the first place) and the simpler variants of each of their strategies (pairs for triples, pairs and triples for quads, X-wing for swordfish, and so on), solve gives the same grid, leaves the same candidates and reports Ok or Err alike for all orders of the same strategies, however often one is listed. With more strategies, clues or exclusions it never finds less: every digit entered with the smaller list is entered with the larger one, and every candidate excluded is excluded.", "quantifier": "every pair of histories of calls of the public methods of a StrategySolver with a sudoku that has a solution, every pair of such lists", "why_tests_cant": "All sudokus and orders; a strategy that is applied earlier can destroy the pattern another one would have used.", "anchors": ["src/strategy/solver.rs: StrategySolver::solve, try_solve", "src/strategy/strategies.rs: Strategy::deduce, Strategy::deduce_all"]}
{"id": "C65", "title": "solve gives up only with an empty cell", "statement": "If solve, with at least one strategy, returns Err for a sudoku that has a solution, the grid it returns has an empty cell. So for such sudokus Ok and Err tell whether the grid is complete.", "quantifier": "every history of calls of the public methods of a StrategySolver with a sudoku that has a solution, every list of at least one strategy", "why_tests_cant": "All sudokus; the result depends on a counter of the cells whose entry was worked into the caches, not on the grid.", "anchors": ["src/strategy/solver.rs: StrategySolver::solve, try_solve, is_solved, update_cell_poss_house_solved"]}
{"id": "C66", "title": "solving again finds nothing new", "statement": "Let solve have returned a grid, with a list of strategies that contains both kinds of singles (NakedSingles not only in the first place) and the simpler variants of its strategies. Solving this grid again, with any strategies of the list, returns the same grid. More generally a solver that is given digits of this grid, and from which candidates are excluded that are not left in the result, enters only digits of this grid and excludes only candidates that are not left.", "quantifier": "every pair of histories of calls of the public methods of StrategySolvers with a common solution, every such list, every list of strategies of it for the second solver", "why_tests_cant": "All sudokus and lists; the second solver starts with other caches and finds the deductions in another order.", "anchors": ["src/strategy/solver.rs: StrategySolver::solve, try_solve, from_sudoku, from_grid_state", "src/strategy/strategies.rs: Strategy::deduce, Strategy::deduce_all"]}
{"id": "C67", "title": "shuffled sudokus are as hard as the original", "statement": "With a list of strategies that contains both kinds of singles (NakedSingles not only in the first place) and the simpler variants of its strategies, solving commutes with the transformations of sudokus (rows within a band, bands, columns within a stack, stacks, transposition, relabelling of the digits): for the transformed sudoku solve returns the transformed grid, leaves the transformed candidates and returns Ok exactly if it returns Ok for the original. So shuffle never changes whether a sudoku can be solved with the strategies, nor how many cells are filled.", "quantifier": "every history of calls of the public methods of a StrategySolver with a sudoku that has a solution, every transformation, every outcome of the random choices of shuffle, every such list", "why_tests_cant": "All sudokus and all 9! * 2 * 6^8 transformations; the strategies find the patterns in another order after a transformation.", "anchors": ["src/strategy/solver.rs: StrategySolver::solve, try_solve", "src/strategy/strategies.rs: Strategy::deduce, Strategy::deduce_all", "src/board/sudoku.rs: shuffle"]}
{"id": "C68", "title": "minimal puzzles are left as they are", "statement": "generate_with_symmetry_from returns a uniquely solvable sudoku unchanged exactly if no set of corresponding clues can be removed from it without losing uniqueness, whatever is drawn. So generating again from a generated puzzle, with the same symmetry, changes nothing.", "quantifier": "every uniquely solvable sudoku, every symmetry, every order in which the cells are visited, every pair of orders for the second claim", "why_tests_cant": "All sudokus and all 81! orders.", "anchors": ["src/board/sudoku.rs: generate_from, generate_with_symmetry_from", "src/generator.rs: SudokuGenerator::generate"]}
{"id": "C69", "title": "the record of a solved sudoku stays small", "statement": "For a sudoku that has a solution, whatever strategies are passed to solve and in whatever order, fewer than 65536 deductions are recorded and together they exclude fewer than 65536 candidates, counted as often as they are excluded. So the 16-bit counters of the solver never wrap around. (A comment in the code says that this is probable but not proved.)", "quantifier": "every history of calls of the public methods of a StrategySolver with a sudoku that has a solution, every list of strategies", "why_tests_cant": "All sudokus and lists of strategies; a first strategy other than singles records the same exclusion many times in one pass, and how often is limited only by combinatorics.", "anchors": ["src/strategy/solver.rs: StrategySolver::solve, try_solve, update_cell_poss_house_solved, update_house_poss_positions", "src/strategy/strategies.rs: Strategy::deduce_all", "src/strategy/deduction.rs: Deductions"]}
{"id": "C70", "title": "subsets and fish of more than four need not be searched for", "statement": "When solve gives up on a sudoku that has a solution with singles and all strategies for naked and hidden pairs, triples and quads in the list, then no naked or hidden subset of any size, also of five to eight cells, is left that would exclude a candidate. With hidden singles, x-wings, swordfish and jellyfish in the list, no basic fish of any number of lines is left that would exclude a candidate. (The library offers these strategies only up to size four.)", "quantifier": "every history of calls of the public methods of a StrategySolver with a sudoku that has a solution, every list of strategies with these in it, every set of cells and digits or lines", "why_tests_cant": "All sudokus, lists and sets; the larger patterns are never searched by the code, so there is nothing to run against it.", "anchors": ["src/strategy/solver.rs: StrategySolver::solve", "src/strategy/strategies/naked_subsets.rs: find_naked_subsets", "src/strategy/strategies/hidden_subsets.rs: find_hidden_subsets", "src/strategy/strategies/basic_fish.rs: find_fish"]}
{"id": "C71", "title": "a strategy is used only when the strategies before it find nothing", "statement": "Every deduction that solve reports for a strategy other than the first one of the list was made when the strategies before it in the list had nothing to find: in the candidates left by the clues, the exclusions and the deductions before it, there is no pattern that one of these strategies searches for. This holds for all strategies between the first one and the one used, and for the first one if it is HiddenSingles, or if it is not NakedSingles and the one used is not the second one of the list. If the strategies that find the patterns not searched for (hidden singles for fish; naked triples and locked candidates for wings) also come before, no pattern of these strategies is left at all.", "quantifier": "every history of calls of the public methods of a StrategySolver with a sudoku that has a solution, every list of strategies, every deduction in the result", "why_tests_cant": "All sudokus, histories and lists; the absence of every pattern of a strategy in every state in which another one is used cannot be checked by the existing tests, which only look at the final grid.", "anchors": ["src/strategy/solver.rs: StrategySolver::solve, try_solve", "src/strategy/strategies.rs: deduce_one, deduce_all", "src/strategy/deduction.rs: Deductions::get"]}
{"id": "C72", "title": "the pattern of a deduction is there at the moment it is made", "statement": "Every deduction that solve reports is an instance of its strategy's pattern on exactly the candidates that are left by the clues, the exclusions and all deductions before it, and each candidate it excludes is still left then. The only exception is a first strategy of the list that excludes candidates: all deductions of one search of this strategy are instances of the pattern on the candidates left before the search, and between that moment and the deduction only this strategy made deductions.", "quantifier": "every history of calls of the public methods of a StrategySolver with a sudoku that has a solution, every non-empty list of strategies, every deduction in the result", "why_tests_cant": "All sudokus, histories and lists; the existing tests do not look at the deductions. That a search never works on outdated candidates cannot be seen from results.", "anchors": ["src/strategy/solver.rs: StrategySolver::solve, try_solve, update_cell_poss_house_solved, update_house_poss_positions", "src/strategy/strategies.rs: deduce_one, deduce_all", "src/strategy/deduction.rs: Deductions::get"]}
{"id": "C73", "title": "strategies added at the end of the list only add deductions at the end", "statement": "If solve is called on equal solvers with a non-empty list of strategies and with a longer list that begins with it, then the deductions of the first call are the first deductions of the second one, and each digit of the first grid is in the second grid. If the first call returns Ok and the sudoku has a solution, the second one returns Ok with the same grid and the same deductions.", "quantifier": "every history of calls of the public methods of a StrategySolver (in which cell_state was not called while a contradiction was visible), every list of strategies and every longer list, whenever both calls return", "why_tests_cant": "All sudokus, histories and pairs of lists.", "anchors": ["src/strategy/solver.rs: StrategySolver::solve, try_solve, is_solved", "src/strategy/strategies.rs: deduce_one, deduce_all", "src/strategy/deduction.rs: Deductions::get, len"]}
{"id": "C74", "title": "a grid state is printed as the same table as a strategy solver", "statement": "The text of a GridState whose sets contain digits only is the table that a StrategySolver prints for these cell states, without the newline at the end, and printing does not panic. Reading it with from_grid_state_str gives the solver for a grid state that shows the same digits in each cell. So the grid_state of a StrategySolver without visible contradictions can be printed and read back without changing the solutions.", "quantifier": "every array of 81 cell states; every history of calls of the public methods of a StrategySolver", "why_tests_cant": "All grid states; the test of the crate checks the round trip for one.", "anchors": ["src/board/grid_state.rs: Display for GridState", "src/board/cell_state.rs: Display for CellState", "src/strategy/solver.rs: StrategySolver::from_grid_state_str, grid_state"]}
{"id": "C75", "title": "avoidable rectangles are found, and what they remove is not in the solution", "statement": "find_avoidable_rectangles never fails for cells with digits or nothing in them. It reports precisely the rectangles in two rows, two columns and two blocks with one free corner where the other three corners are not clues and hold two digits together, one of which is the only one of the two that is a candidate of the free corner. If the clues have a unique solution that the filled cells are taken from, the reported candidate is not in the solution. If the candidates do not contradict filled cells, the reported digit is that of the opposite corner.", "quantifier": "every pair of arrays of filled cells and clues and every table of candidates", "why_tests_cant": "All grids and candidate tables; the function is not called by the crate and has no test. The soundness is about all solutions of a puzzle.", "anchors": ["src/strategy/strategies/avoidable_rectangles.rs: find_avoidable_rectangles"]}
{"id": "C76", "title": "almost locked sets: all are listed, and the function that compares them panics", "statement": "_find_almost_locked_sets lists, for every size and house, precisely the sets of that many cells of the house, each with two or more candidates, that have one more candidate together than cells, each set once. In a solution within the candidates, exactly one of the digits of such a set is in none of its cells. find_almost_locked_sets, which goes through pairs of these sets, panics for all candidates since it reads index 8 of an array of length 8.", "quantifier": "every table of candidates; every solution", "why_tests_cant": "All candidate tables and all subsets of the cells of a house; the functions are not called by the crate and have no test.", "anchors": ["src/strategy/strategies/almost_locked_sets.rs: _find_almost_locked_sets, _walk_combinations, find_almost_locked_sets"]}
{"id": "C77", "title": "direct links: which are found, and what they mean", "statement": "For tables of candidates by cell and by house that agree, find_direct_links finds precisely these links: strong links between the two candidates of a cell; and for candidates in cells without exactly two candidates, strong links in houses with exactly two places for the digit, weak links to the other candidates of the cell, and weak links in houses with at least three places. In a solution within the candidates, exactly one of two strongly linked candidates holds, and at most one of two weakly linked ones. The comment that strong and weak links in cells and houses are found is false: in cells with two candidates, links in houses are left out, so a link may be found in one direction only.", "quantifier": "every pair of agreeing tables of candidates; every solution", "why_tests_cant": "All candidate tables; the function is not called by the crate and has no test.", "anchors": ["src/strategy/utils.rs: find_direct_links, conflicting_house_positions"]}
{"id": "C78", "title": "canonical forms are as hard as the original", "statement": "If canonicalized returns a sudoku, then one transformation takes both the sudoku to its canonical form and the grid that solve makes of the sudoku to the grid that it makes of the canonical form: solve fills the same number of cells and reports both as solved or neither. So two sudokus with the same canonical form are equally hard. The list of strategies contains both kinds of singles, NakedSingles not only in the first place, and the simpler variants of its strategies.", "quantifier": "every sudoku for which canonicalized returns something, every such list of strategies", "why_tests_cant": "All sudokus and lists of strategies; the canonical form looks nothing like the original, so that the searches run in another order.", "anchors": ["src/board/sudoku.rs: Sudoku::canonicalized", "src/board/canonicalization.rs: find_canonical_sudoku_and_automorphisms", "src/strategy/solver.rs: StrategySolver::solve"]}
{"id": "C79", "title": "shuffling is fair", "statement": "The outcomes of shuffle over all random choices are exactly the sudokus equivalent to the given one, and each of them comes from the same number of choices, namely the number of transformations that map the given sudoku to itself. For a completed grid this is the count that canonicalized returns, and there are 1218998108160 divided by it equivalent grids. For a sudoku that is not completed it divides the count. Equivalent sudokus have the same count.", "quantifier": "every sudoku, every equivalent sudoku, all random choices", "why_tests_cant": "There are 1218998108160 outcomes of the random choices for every sudoku; counting is not possible by sampling.", "anchors": ["src/board/sudoku.rs: Sudoku::shuffle, Sudoku::canonicalized", "src/board/canonicalization.rs: Transformation::random, find_canonical_sudoku_and_automorphisms"]}
{"id": "C80", "title": "solve finds exactly what follows by its strategies", "statement": "Call a digit or an exclusion derivable if it is given, or a pattern of one of the strategies yields it on the candidates left by some derivable digits and exclusions. Everything that solve enters or excludes is derivable, for every list of strategies. If the list contains the singles and the simpler variants of its strategies, then solve enters exactly the derivable digits, leaves exactly the candidates that no derivable digit or exclusion rules out, and succeeds exactly if a digit is derivable for every cell. Without the simpler variants it may miss derivable digits.", "quantifier": "every sudoku or grid state with a solution, every list of strategies, every digit and candidate", "why_tests_cant": "Whether something is derivable depends on all orders of all deductions; tests see the one order that solve takes.", "anchors": ["src/strategy/solver.rs: StrategySolver::solve, try_solve", "src/strategy/deduction.rs: Deductions::get"]}
{"id": "C81", "title": "the two readers of blocks agree", "statement": "What from_str_block accepts, from_str_block_permissive reads as the same sudoku, unless the text after a horizontal field delimiter has nine cell characters; without field delimiters they always agree. With nine digits after a horizontal delimiter both accept the text and read different sudokus. from_str_block never reads what display_block prints. The text of examples/example.rs has vertical but no horizontal delimiters: from_str_block rejects it, so the program panics, and from_str_block_permissive reads it.", "quantifier": "every text", "why_tests_cant": "The two readers are written independently and differ in what they skip; only particular comments after delimiters show it. The examples are not run by the tests.", "anchors": ["src/board/sudoku.rs: Sudoku::from_str_block, from_str_block_permissive, display_block", "examples/example.rs: main"]}
{"id": "C82", "title": "every sudoku that the library returns is well-formed", "statement": "The sudokus that can be made with the public functions (readers, constructors, deserialization, solvers, generators, shuffle, canonical form, to_sudoku and solve of the strategy solver, applied in any order to each other's results) are exactly the 81-byte arrays with entries 0 to 9. So the guarantee that all functions rely on is never lost, also not by solve on contradictory sudokus with any strategies after any calls. solve never empties a cell.", "quantifier": "every sequence of public calls, all arguments and random choices", "why_tests_cant": "The type Sudoku promises entries up to 9 and other functions index tables with them; a single function that lets another byte slip through in a rare case breaks them all.", "anchors": ["src/board/sudoku.rs: all functions that return a Sudoku", "src/strategy/solver.rs: StrategySolver::to_sudoku, solve"]}
{"id": "C83", "title": "the program of Project Euler problem 96 adds up the corners", "statement": "For every text in place of the included file: the text is split into the pieces between the occurrences of Grid; if every piece after the first holds a solvable sudoku in its first nine lines with nine cells, and there are at most four million of them, the program prints the sum of the three-digit numbers in the corners of solutions, which is the sum asked for if the solutions are unique. If some piece has fewer than nine such lines or its sudoku has no solution, it panics. It always ends.", "quantifier": "every text", "why_tests_cant": "The example is not run by the tests and has one input; how it behaves on other files depends on splitting, reading, solving and overflow together.", "anchors": ["examples/project_euler.rs: main", "src/board/sudoku.rs: Sudoku::from_str_block_permissive, some_solution"]}
{"id": "C84", "title": "a sudoku has at most 648 automorphisms", "statement": "The number of transformations that map a completed grid, or any uniquely solvable sudoku, to itself divides 648, and so does every count that canonicalized returns. A grid with exactly 648 automorphisms exists, and canonicalized returns 648 for it. So the number of different sudokus that shuffling a uniquely solvable sudoku can give is a multiple of 1881169920. Without unique solvability the documented bound does not hold: all 1218998108160 transformations map the empty sudoku to itself.", "quantifier": "every completed grid; every uniquely solvable sudoku; every sudoku for which canonicalized returns a count", "why_tests_cant": "The documentation of shuffle claims a maximum over all sudokus; there are about 6.67 * 10^21 completed grids.", "anchors": ["src/board/sudoku.rs: Sudoku::shuffle (documentation), Sudoku::canonicalized"]}
{"id": "C85", "title": "position arithmetic does not overflow", "statement": "All conversions between cells, rows, columns, blocks, lines, houses, minilines, bands, stacks and chutes, the sets of their cells, cell_at, the positions within a house and the neighbours are computed with u8 and u128 arithmetic that does not overflow for positions in range, with and without overflow checks, and give the positions of the board's geometry. With debug assertions cell_at returns a cell or panics for all numbers. Position::new accepts every number, and cell_at with a number out of range can return a cell outside of the row; without debug assertions Row::new(9).cells() contains numbers that are not cells.", "quantifier": "every position of every kind, in builds with and without overflow checks; every two u8 for cell_at", "why_tests_cant": "The tests of the repository check the sets of cells and the tables with debug assertions only; that no operation overflows in any build is a statement about all positions and all operations.", "anchors": ["src/board/positions.rs: into_cells!, impl_from!, CellAt, Cell::from_coords, categorize, neighbors, minilines"]}
{"id": "C86", "title": "reading and printing text does not overflow", "statement": "from_str_line, from_str_block, from_str_block_permissive and to_str_line count cells, rows and columns and compute digits with u8 arithmetic. For no text and no sudoku does an operation overflow: with and without overflow checks the functions do what the model on unbounded numbers does, and the number of rows in the error of from_str_block_permissive is not cut off by the conversion to u8.", "quantifier": "every text, every sudoku with entries 0..9, in builds with and without overflow checks", "why_tests_cant": "Texts are unbounded: a counter of 8 bits overflows only for some long text, which no finite set of tests excludes.", "anchors": ["src/board/sudoku.rs: Sudoku::from_str_line, from_str_block, from_str_block_permissive, to_str_line"]}
{"id": "C87", "title": "shuffling and canonicalizing does not overflow", "statement": "shuffle, shuffled and canonicalized compute row, column, band and permutation numbers with u8 arithmetic and check them with debug assertions. Whatever random numbers are drawn, and for every sudoku, no operation overflows and no debug assertion fails: builds with and without overflow checks and debug assertions return what the model on unbounded numbers returns.", "quantifier": "every sudoku with entries 0..9, every draw of the random numbers, in builds with and without overflow checks and debug assertions", "why_tests_cant": "The intermediate numbers depend on the drawn permutations (more than 10^12 of them) and on the grid; tests see a few of them, and only in a debug build would an overflow show.", "anchors": ["src/board/canonicalization.rs: Transformation::random, Transformation::apply, find_minlex_band_transformation, find_minimal_transformation_for_band, find_canonical_sudoku_and_transformation", "src/board/sudoku.rs: Sudoku::shuffle, Sudoku::canonicalized"]}
{"id": "C88", "title": "the first strategy finds all its patterns in one pass", "statement": "StrategySolver::solve runs the first strategy of its list with deduce_all: for a sudoku with a solution, every candidate that a pattern of this strategy excludes in the candidates at the start is excluded by one of the recorded deductions. This holds too when the strategy is the only one of the list and so runs just once. Patterns are those the strategy searches for: the lines of a fish hold at least two candidates, and the pincers of a wing do not see each other. Singles exclude nothing by themselves, so for them it says nothing.", "quantifier": "every solver state reached through the public API, every list of strategies, every solution, every searched pattern of the first strategy", "why_tests_cant": "There are very many combinations of cells, digits and houses that can form a pattern; a search that stops at the first find still passes every test that only looks at whether something was found.", "anchors": ["src/strategy/solver.rs: StrategySolver::solve, StrategySolver::try_solve", "src/strategy/strategies.rs: Strategy::deduce_all"]}
