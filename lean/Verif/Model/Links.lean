import Verif.Model.Strategy

/-!
# Model of `/repo/src/strategy/utils.rs`

The file is marked as work in progress and its functions are not called.  The two hash maps of vectors are modelled by the list of
all insertions: `(true, a, b)` pushes `b` on the vector of `a` in the map of strong links, `(false, a, b)` in that of weak
links.
-/
namespace Verif.Strat

open Bitset

/-- The common part of lines 45-52 and 66-73 of src/strategy/utils.rs: a strong link to the only other element, or weak links to all
of them.  `unwrap_or(None)` turns the error for an empty set into `None`. -/
def linksTo (others : BitVec 16) : Res (Bool × List (Fin 9)) := do
  match ← uniqueItem 9 others with
  | .ok (some other) => .ok (true, [other])
  | _ => do .ok (false, ← items 9 others)

/-- `conflicting_house_positions`, src/strategy/utils.rs lines 84-96. -/
def conflictingHousePositions (e : Candidate) (hp : Vector (Vector PosSet 9) 27) : List (Fin 27 × PosSet) :=
  ((Pos.houses e.cell).zip [Pos.rowPos e.cell, Pos.colPos e.cell, Pos.blockPos e.cell]).map
    (fun (house, pos) => (house, symmDiff hp[house][e.digit] (asSet 16 pos.val)))

/-- The body of the two loops, src/strategy/utils.rs lines 30-74. -/
def candidateLinks (cp : Vector DigitSet 81) (hp : Vector (Vector PosSet 9) 27) (e : Candidate) :
    Res (List (Bool × Candidate × Candidate)) := do
  let (strong, digits) ← linksTo (symmDiff cp[e.cell] (asSet 16 e.digit.val))
  let cellLinks := digits.map (fun digit => (strong, e, (⟨e.cell, digit⟩ : Candidate)))
  if strong then .ok cellLinks
  else do
    let houseLinks ← (conflictingHousePositions e hp).mapM (fun (house, positions) => do
      let (strong, positions) ← linksTo positions
      .ok (positions.map (fun pos => (strong, e, (⟨Pos.houseCellAt house pos, e.digit⟩ : Candidate)))))
    .ok (cellLinks ++ houseLinks.flatten)

/-- `find_direct_links`, src/strategy/utils.rs lines 21-82. -/
def findDirectLinks (cp : Vector DigitSet 81) (hp : Vector (Vector PosSet 9) 27) :
    Res (List (Bool × Candidate × Candidate)) := do
  let links ← (List.finRange 81).mapM (fun cell => do
    let digits ← items 9 cp[cell]
    let links ← digits.mapM (fun digit => candidateLinks cp hp ⟨cell, digit⟩)
    .ok links.flatten)
  .ok links.flatten

end Verif.Strat
