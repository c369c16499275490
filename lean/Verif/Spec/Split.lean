import Verif.Spec.Text

/-!
# Specification: the pieces of a text between the occurrences of a word
-/
namespace Verif.Text

/-- The text consists of the first piece and of further pieces, each after the word, and no piece has the word in it. -/
def SplitInto (word text first : List Char) (pieces : List (List Char)) : Prop :=
  text = first ++ pieces.flatMap (fun p => word ++ p) ∧ ∀ p ∈ first :: pieces, ¬ word <:+: p

/-- The rows of the sudoku are the first nine lines with nine cells. -/
def HoldsRows (text : List Char) (g : Grid) : Prop :=
  9 ≤ (permissiveRows text).length ∧ List.ofFn (gridRow g) = (permissiveRows text).take 9

/-- The number formed by the first three cells. -/
def cornerOf (t : Grid) : Nat := 100 * t[0].toNat + 10 * t[1].toNat + t[2].toNat

end Verif.Text
