import Verif.Model.Strategy
import Verif.Spec.Board
import Verif.Spec.Sets

/-!
# Specification: the patterns behind the deductions

`cand c d` says that the digit `d` is a candidate of the cell `c` (digits are numbered `0..8`).
-/
namespace Verif.Pattern

open Verif Strat

/-- Houses: `0..8` are the rows, `9..17` the columns, `18..26` the blocks. -/
def InHouse (h : Nat) (c : Fin 81) : Prop :=
  if h < 9 then rowOf c = h else if h < 18 then colOf c = h - 9 else blockOf c = h - 18

instance (h : Nat) (c : Fin 81) : Decidable (InHouse h c) := by unfold InHouse; infer_instance

/-- The position (0..8) of a cell in a house that contains it, counted from left to right and top to bottom. -/
def posIn (h : Nat) (c : Fin 81) : Nat :=
  if h < 9 then colOf c else if h < 18 then rowOf c else rowOf c % 3 * 3 + colOf c % 3

/-- The house a `HouseType` stands for. -/
def houseNr : Pos.HouseType → Nat
  | .row r => r.val
  | .col c => 9 + c.val
  | .block b => 18 + b.val

/-- The line of a miniline (as a house), and its block: minilines `0..26` are the minirows, three in each row; `27..53`
are the minicolumns, three in each column. -/
def miniLine (m : Nat) : Nat := if m < 27 then m / 3 else 9 + (m - 27) / 3
def miniBlock (m : Nat) : Nat := 18 + if m < 27 then m / 9 * 3 + m % 3 else (m - 27) % 3 * 3 + (m - 27) / 9

/-- Element of a bit set. -/
def Has {w : Nat} (s : BitVec w) (i : Nat) : Prop := i ∈ elems s

/-- A cell sees another one. -/
def Sees (c c' : Fin 81) : Prop := c ≠ c' ∧ SameHouse c c'

/-- `conflicts` lists the candidates satisfying `P`, and there is one. -/
def Lists (conflicts : List Candidate) (cand : Fin 81 → Digit → Prop) (P : Fin 81 → Digit → Prop) : Prop :=
  conflicts ≠ [] ∧ ∀ c d, (⟨c, d⟩ : Candidate) ∈ conflicts ↔ P c d ∧ cand c d

/-- A naked single: the only candidate of its cell. -/
def NakedSingle (cand : Fin 81 → Digit → Prop) (e : Candidate) : Prop := ∀ d, cand e.cell d ↔ d = e.digit

/-- A hidden single: the only place for its digit in a house. -/
def HiddenSingle (cand : Fin 81 → Digit → Prop) (e : Candidate) (h : Nat) : Prop :=
  InHouse h e.cell ∧ ∀ c, InHouse h c → (cand c e.digit ↔ c = e.cell)

/-- Locked candidates: in the house `h1` the digit is possible only in cells also in `h2`, and so it is excluded from
the other cells of `h2`. -/
def Locked (cand : Fin 81 → Digit → Prop) (digit : Digit) (h1 h2 : Nat) (conflicts : List Candidate) : Prop :=
  (∃ c, InHouse h1 c ∧ cand c digit) ∧ (∀ c, InHouse h1 c → cand c digit → InHouse h2 c) ∧
  Lists conflicts cand (fun c d => d = digit ∧ InHouse h2 c ∧ ¬ InHouse h1 c)

/-- A naked subset of size `n`: `n` unsolved cells of a house with `n` candidates together. -/
def NakedSubset (cand : Fin 81 → Digit → Prop) (n : Nat) (h : Nat) (positions : PosSet) (digits : DigitSet)
    (conflicts : List Candidate) : Prop :=
  (elems positions).card = n ∧ (elems digits).card = n ∧
  (∀ p, Has positions p → p < 9) ∧ (∀ d, Has digits d → d < 9) ∧
  (∀ c, InHouse h c → Has positions (posIn h c) → (∃ d, cand c d) ∧ ∀ d, cand c d → Has digits d.val) ∧
  Lists conflicts cand (fun c d => InHouse h c ∧ ¬ Has positions (posIn h c) ∧ Has digits d.val)

/-- A hidden subset of size `n`: `n` digits with `n` places together in a house. -/
def HiddenSubset (cand : Fin 81 → Digit → Prop) (n : Nat) (h : Nat) (positions : PosSet) (digits : DigitSet)
    (conflicts : List Candidate) : Prop :=
  (elems positions).card = n ∧ (elems digits).card = n ∧
  (∀ p, Has positions p → p < 9) ∧ (∀ d, Has digits d → d < 9) ∧
  (∀ d : Digit, Has digits d.val → (∃ c, InHouse h c ∧ cand c d) ∧
    ∀ c, InHouse h c → cand c d → Has positions (posIn h c)) ∧
  Lists conflicts cand (fun c d => InHouse h c ∧ Has positions (posIn h c) ∧ ¬ Has digits d.val)

/-- A basic fish of size `n`: in `n` parallel lines the digit has `n` positions together; it is excluded at these
positions of the other parallel lines.  The lines `0..8` are the rows, `9..17` the columns. -/
def BasicFish (cand : Fin 81 → Digit → Prop) (n : Nat) (digit : Digit) (lines : LineSet) (positions : PosSet)
    (conflicts : List Candidate) : Prop :=
  (elems lines).card = n ∧ (elems positions).card = n ∧ (∀ p, Has positions p → p < 9) ∧
  ∃ dir : Nat, (dir = 0 ∨ dir = 9) ∧ (∀ l, Has lines l → dir ≤ l ∧ l < dir + 9) ∧
    (∀ l, Has lines l → (∃ c, InHouse l c ∧ cand c digit) ∧
      ∀ c, InHouse l c → cand c digit → Has positions (posIn l c)) ∧
    Lists conflicts cand (fun c d => d = digit ∧
      ∃ l, dir ≤ l ∧ l < dir + 9 ∧ ¬ Has lines l ∧ InHouse l c ∧ Has positions (posIn l c))

/-- An XY-wing (`withZ = false`) or XYZ-wing (`withZ = true`): the hinge has the candidates `x`, `y` (and `z`), it sees
two pincers with the candidates `x`, `z` and `y`, `z`; then `z` is excluded from all cells seeing the pincers
(and the hinge). -/
def Wing (cand : Fin 81 → Digit → Prop) (withZ : Bool) (hinge : Fin 81) (hingeDigits : DigitSet) (pincers : Pos.Cells)
    (conflicts : List Candidate) : Prop :=
  ∃ (p1 p2 : Fin 81) (x y z : Digit), p1 ≠ p2 ∧ (∀ i, Has pincers i ↔ i = p1.val ∨ i = p2.val) ∧
    Sees hinge p1 ∧ Sees hinge p2 ∧ x ≠ y ∧ x ≠ z ∧ y ≠ z ∧
    (∀ d, cand p1 d ↔ d = x ∨ d = z) ∧ (∀ d, cand p2 d ↔ d = y ∨ d = z) ∧
    (∀ d, cand hinge d ↔ d = x ∨ d = y ∨ (withZ = true ∧ d = z)) ∧ (∀ d : Digit, Has hingeDigits d.val ↔ cand hinge d) ∧
    Lists conflicts cand (fun c d => d = z ∧ Sees c p1 ∧ Sees c p2 ∧ (withZ = true → Sees c hinge))

/-- A deduction found by a strategy shows the pattern of that strategy. -/
def Matches (cand : Fin 81 → Digit → Prop) : Strategy → Deduction (List Candidate) → Prop
  | .nakedSingles, .nakedSingles e => NakedSingle cand e
  | .hiddenSingles, .hiddenSingles e h => HiddenSingle cand e (houseNr h)
  | .lockedCandidates, .lockedCandidates digit m isPointing conflicts =>
    if isPointing then Locked cand digit (miniBlock m) (miniLine m) conflicts
    else Locked cand digit (miniLine m) (miniBlock m) conflicts
  | .nakedPairs, .subsets h positions digits conflicts => NakedSubset cand 2 h positions digits conflicts
  | .nakedTriples, .subsets h positions digits conflicts => NakedSubset cand 3 h positions digits conflicts
  | .nakedQuads, .subsets h positions digits conflicts => NakedSubset cand 4 h positions digits conflicts
  | .hiddenPairs, .subsets h positions digits conflicts => HiddenSubset cand 2 h positions digits conflicts
  | .hiddenTriples, .subsets h positions digits conflicts => HiddenSubset cand 3 h positions digits conflicts
  | .hiddenQuads, .subsets h positions digits conflicts => HiddenSubset cand 4 h positions digits conflicts
  | .xWing, .basicFish digit lines positions conflicts => BasicFish cand 2 digit lines positions conflicts
  | .swordfish, .basicFish digit lines positions conflicts => BasicFish cand 3 digit lines positions conflicts
  | .jellyfish, .basicFish digit lines positions conflicts => BasicFish cand 4 digit lines positions conflicts
  | .xyWing, .wing hinge hingeDigits pincers conflicts => Wing cand false hinge hingeDigits pincers conflicts
  | .xyzWing, .wing hinge hingeDigits pincers conflicts => Wing cand true hinge hingeDigits pincers conflicts
  | _, _ => False

/-- The digit that a deduction enters. -/
def entry : Deduction (List Candidate) → Option Candidate
  | .nakedSingles e => some e
  | .hiddenSingles e _ => some e
  | _ => none

/-- The candidates that a deduction excludes. -/
def removed : Deduction (List Candidate) → List Candidate
  | .nakedSingles _ => []
  | .hiddenSingles _ _ => []
  | .lockedCandidates _ _ _ conflicts => conflicts
  | .subsets _ _ _ conflicts => conflicts
  | .basicFish _ _ _ conflicts => conflicts
  | .fish _ _ _ conflicts => conflicts
  | .wing _ _ _ conflicts => conflicts
  | .avoidableRectangle _ conflicts => conflicts

/-- The candidates that are left when the digits `E` are entered and the candidates `R` are excluded. -/
def after (E R : List Candidate) (c : Fin 81) (d : Digit) : Prop :=
  (⟨c, d⟩ : Candidate) ∉ R ∧ ∀ e ∈ E, e.cell ≠ c ∧ ¬ (SameHouse e.cell c ∧ e.digit = d)

end Verif.Pattern
