import Verif.Proofs.AlmostLocked
import Verif.Spec.Examples

/-! C76: almost locked sets. -/
namespace Verif.Props

open Verif Strat Pattern

/-- **C76** (what is found).  For candidates that are digits, the search does not fail, and the lists for a size and a house
contain precisely the almost locked sets of this size in this house, each once.  There are none of other sizes. -/
theorem C76_lists (cp : Vector DigitSet 81) (hf : ∀ c : Fin 81, elems cp[c] ⊆ Finset.range 9) :
    ∃ t, findAls cp = .ok t ∧
      (∀ (n : Fin 8) (h : Fin 27), (t[n][h].map (·.1)).Nodup ∧ ∀ cells digits, (cells, digits) ∈ t[n][h] ↔
        AlmostLocked (fun c d => d.val ∈ elems cp[c]) (n.val + 1) h cells digits) ∧
      ∀ (n h : Nat) (cells : Pos.Cells) (digits : DigitSet),
        AlmostLocked (fun c d => d.val ∈ elems cp[c]) n h cells digits → 1 ≤ n ∧ n ≤ 8 ∧ h < 27 := by
  have hf' : ∀ c : Fin 81, Bitset.Fits 9 cp[c] := fun c => Bitset.fits_iff.mpr (hf c)
  obtain ⟨t, e, ht⟩ := AlmostLocked.findAls_spec hf'
  refine ⟨t, e, fun n h => ⟨?_, fun cells digits => ?_⟩, fun n h cells digits hA => ?_⟩
  · rw [ht]; exact AlmostLocked.entries_nodup n h
  · rw [ht]; exact AlmostLocked.almostLocked_iff hf' n h (cells, digits)
  · have hn := AlmostLocked.als_sizes hA
    refine ⟨hn.1, hn.2, ?_⟩
    have : 0 < (elems cells).card := by rw [hA.size]; exact hn.1
    obtain ⟨i, hi⟩ := Finset.card_pos.mp this
    obtain ⟨c, -, hc⟩ := hA.inHouse i hi
    have hb : blockOf c.val < 9 := by unfold blockOf rowOf colOf; omega
    unfold InHouse at hc
    split at hc
    · omega
    · split at hc <;> omega

/-- **C76** (what it means).  In a solution within the candidates, one and only one of the digits of an almost locked set is in
none of its cells. -/
theorem C76_one_missing (t : Grid) (ht : Solved t) (cand : Fin 81 → Digit → Prop) (n h : Nat) (cells : Pos.Cells)
    (digits : DigitSet) (hA : AlmostLocked cand n h cells digits)
    (hc : ∀ (c : Fin 81) (d : Digit), Has cells c.val → t[c] = d.get → cand c d) :
    ∃! d : Digit, Has digits d.val ∧ ∀ c : Fin 81, Has cells c.val → t[c] ≠ d.get :=
  AlmostLocked.one_missing ht hA hc

/-- **C76** (the function that uses the lists).  `find_almost_locked_sets` panics for all candidates: it looks up the sets of
size 8 at the index 8 of an array of length 8. -/
theorem C76_panics (cp : Vector DigitSet 81) (hf : ∀ c : Fin 81, elems cp[c] ⊆ Finset.range 9) :
    findAlmostLockedSets cp = .panic :=
  AlmostLocked.find_panics (fun c => Bitset.fits_iff.mpr (hf c))

namespace AlsExample

/-- 4 and 8 in R1C1, 3 and 8 in R1C2, and no other candidates. -/
def cp : Vector DigitSet 81 := ((Vector.replicate 81 0).set 0 0x88#16).set 1 0x84#16

def entries (n : Fin 8) (h : Fin 27) : List (Pos.Cells × DigitSet) :=
  match findAls cp with
  | .ok t => t[n][h]
  | _ => []

end AlsExample

open AlsExample in
/-- Each cell is an almost locked set in its three houses; the two of them are one in the row and in the block. -/
example : (∀ c : Fin 81, elems cp[c] ⊆ Finset.range 9) ∧
    entries 0 0 = [(0x1#128, 0x88#16), (0x2#128, 0x84#16)] ∧ entries 0 9 = [(0x1#128, 0x88#16)] ∧
    entries 1 0 = [(0x3#128, 0x8c#16)] ∧ entries 1 18 = [(0x3#128, 0x8c#16)] ∧ entries 1 9 = [] := by
  decide +kernel

open AlsExample in
/-- The hypotheses of `C76_one_missing` are met by the two cells in the first row. -/
example : Solved Ex.solved ∧ AlmostLocked (fun c d => d.val ∈ elems cp[c]) 2 0 0x3#128 0x8c#16 ∧
    ∀ (c : Fin 81) (d : Digit), Has 0x3#128 c.val → Ex.solved[c] = d.get → d.val ∈ elems cp[c] := by
  have hf : ∀ c : Fin 81, elems cp[c] ⊆ Finset.range 9 := by decide +kernel
  obtain ⟨t, e, ht, -⟩ := C76_lists cp hf
  refine ⟨by decide +kernel, ((ht 1 0).2 _ _).mp ?_, by unfold Has; decide +kernel⟩
  have h : (0x3#128, 0x8c#16) ∈ entries 1 0 := by decide +kernel
  unfold entries at h
  rw [e] at h
  exact h

end Verif.Props
