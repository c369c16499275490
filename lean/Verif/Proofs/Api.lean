import Verif.Model.Sudoku
import Verif.Proofs.Agree
import Mathlib.Data.Set.Card

/-! Counting solutions; the API functions in terms of one list of solutions. -/
namespace Verif

instance : Finite UInt8 := Finite.of_injective (fun a : UInt8 => (⟨a.toNat, a.toNat_lt⟩ : Fin 256))
  (fun a b h => UInt8.toNat_inj.1 (congrArg Fin.val h))

instance : Finite Grid := Finite.of_injective (fun (g : Grid) (i : Fin 81) => g[i]) (by
  intro a b h
  apply Vector.ext
  intro i hi
  exact congrFun h ⟨i, hi⟩)

theorem solutionSet_finite (g : Grid) : (solutionSet g).Finite := Set.toFinite _

theorem numSolutions_eq {g : Grid} {L : List Grid} (hn : L.Nodup) (hL : ∀ t, t ∈ L ↔ IsSolution g t) :
    numSolutions g = L.length := by
  classical
  unfold numSolutions
  have : solutionSet g = (L.toFinset : Set Grid) := by
    ext t; simp [solutionSet, hL]
  rw [this, Set.ncard_coe_finset, List.toFinset_card_of_nodup hn]

theorem le_numSolutions {g : Grid} {L : List Grid} (hn : L.Nodup) (hL : ∀ t ∈ L, IsSolution g t) :
    L.length ≤ numSolutions g := by
  classical
  unfold numSolutions
  rw [← List.toFinset_card_of_nodup hn, ← Set.ncard_coe_finset]
  apply Set.ncard_le_ncard _ (solutionSet_finite g)
  intro t ht
  simp at ht
  exact hL t ht

theorem numSolutions_eq_zero {g : Grid} : numSolutions g = 0 ↔ ∀ t, ¬ IsSolution g t := by
  unfold numSolutions
  rw [Set.ncard_eq_zero (solutionSet_finite g), Set.eq_empty_iff_forall_notMem]
  rfl

theorem numSolutions_eq_one {g : Grid} : numSolutions g = 1 ↔ UniquelySolvable g := by
  unfold numSolutions UniquelySolvable
  rw [Set.ncard_eq_one]
  constructor
  · rintro ⟨t, ht⟩
    refine ⟨t, ?_, fun t' ht' => ?_⟩
    · have : t ∈ solutionSet g := by rw [ht]; rfl
      exact this
    · have : t' ∈ solutionSet g := ht'
      rw [ht] at this; exact this
  · rintro ⟨t, h1, h2⟩
    refine ⟨t, Set.eq_singleton_iff_unique_mem.2 ⟨h1, h2⟩⟩

namespace Sudoku
open FastSolver

theorem foldl_vector (L v : List Grid) : L.foldl Solutions.add (.vector v) = .vector (v ++ L) := by
  induction L generalizing v with
  | nil => simp
  | cons t L ih => rw [List.foldl_cons]; simp only [Solutions.add]; rw [ih]; simp

/-- Writing `L` into the slots from `n` on. -/
def writeFrom (buf : List Grid) (n : Nat) : List Grid → List Grid
  | [] => buf
  | t :: L => writeFrom (buf.set n t) (n + 1) L

theorem foldl_buffer (L buf : List Grid) (n : Nat) :
    L.foldl Solutions.add (.buffer buf n) = .buffer (writeFrom buf n L) (n + L.length) := by
  induction L generalizing buf n with
  | nil => simp [writeFrom]
  | cons t L ih =>
    rw [List.foldl_cons]
    simp only [Solutions.add]
    rw [ih, List.length_cons]
    have : (if n < buf.length then buf.set n t else buf) = buf.set n t := by
      split
      · rfl
      · rw [List.set_eq_of_length_le (by omega)]
    rw [this]
    simp only [writeFrom]
    congr 1; omega

theorem writeFrom_length (L buf : List Grid) (n : Nat) : (writeFrom buf n L).length = buf.length := by
  induction L generalizing buf n with
  | nil => rfl
  | cons t L ih => simp only [writeFrom]; rw [ih, List.length_set]

theorem writeFrom_get (L buf : List Grid) (n i : Nat) (hi : i < buf.length) :
    (writeFrom buf n L)[i]? = if n ≤ i ∧ i < n + L.length then L[i - n]? else buf[i]? := by
  induction L generalizing buf n with
  | nil => simp only [writeFrom, List.length_nil]; rw [if_neg (by omega)]
  | cons t L ih =>
    simp only [writeFrom]
    rw [ih _ _ (by rw [List.length_set]; exact hi), List.length_cons]
    by_cases h1 : n + 1 ≤ i ∧ i < n + 1 + L.length
    · rw [if_pos h1, if_pos (by omega)]
      rw [show i - n = (i - (n + 1)) + 1 by omega, List.getElem?_cons_succ]
    · rw [if_neg h1]
      by_cases h2 : i = n
      · subst h2
        rw [if_pos (by omega)]
        simp [hi]
      · rw [if_neg (by omega), List.getElem?_set_ne (by omega)]

/-- Everything the solving functions return, from one list. -/
structure SolverResults (g : Grid) (limit : Nat) (L : List Grid) : Prop where
  nodup : L.Nodup
  sound : ∀ t ∈ L, IsSolution g t
  length : L.length = min limit (numSolutions g)
  complete : numSolutions g ≤ limit → ∀ t, IsSolution g t → t ∈ L
  upTo : ∀ fuel, 800 ≤ fuel → solutionsUpTo fuel g limit = .ok L
  count : ∀ fuel, 800 ≤ fuel → solutionsCountUpTo fuel g limit = .ok L.length
  buffer : ∀ fuel, 800 ≤ fuel → ∀ buf, solutionsUpToBuffer fuel g buf limit = .ok (L.length, writeFrom buf 0 L)

theorem exists_results {g : Grid} (hg : WellFormed g) (limit : Nat) : ∃ L, SolverResults g limit L := by
  obtain ⟨L, n, m, l, c, e⟩ := runSudoku_spec hg limit
  have hle := le_numSolutions n m
  have hlen : L.length = min limit (numSolutions g) := by
    rcases Nat.lt_or_ge L.length limit with hlt | hge
    · have := numSolutions_eq n (fun t => ⟨m t, c hlt t⟩)
      omega
    · omega
  refine ⟨L, n, m, hlen, fun hlim t ht => ?_, fun fuel hf => ?_, fun fuel hf => ?_, fun fuel hf buf => ?_⟩
  · by_contra hn
    have : (t :: L).length ≤ numSolutions g := le_numSolutions (List.nodup_cons.2 ⟨hn, n⟩) (by
      intro t' ht'
      rcases List.mem_cons.1 ht' with e | e
      · rw [e]; exact ht
      · exact m t' e)
    simp only [List.length_cons] at this
    omega
  · unfold solutionsUpTo
    rw [e _ rfl fuel hf, foldl_vector]
    rfl
  · unfold solutionsCountUpTo
    rw [e _ rfl fuel hf, Res.ok_bind, Solutions.len_foldl]
    simp [Solutions.len]
  · unfold solutionsUpToBuffer
    rw [e _ rfl fuel hf, foldl_buffer]
    simp

end Sudoku
end Verif
