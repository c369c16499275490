import Verif.Model.Canonical
import Verif.Spec.Equivalence
import Verif.Proofs.Post
import Mathlib.Data.Fintype.Perm

/-!
# Swapping cells, rows, columns, bands and stacks as rearrangements
-/
namespace Verif.Canon

open Verif

variable {α β : Type} {n : Nat}

/-- The vector whose entry `i` is the entry `p i` of `v`. -/
def rearr (p : Fin n → Fin n) (v : Vector α n) : Vector α n := Vector.ofFn (fun i => v[p i])

@[simp] theorem rearr_get (p : Fin n → Fin n) (v : Vector α n) (i : Fin n) : (rearr p v)[i] = v[p i] := by
  simp [rearr]

theorem rearr_getNat (p : Fin n → Fin n) (v : Vector α n) (i : Nat) (h : i < n) :
    (rearr p v)[i] = v[p ⟨i, h⟩] := by
  simp [rearr]

theorem rearr_rearr (p q : Fin n → Fin n) (v : Vector α n) : rearr q (rearr p v) = rearr (p ∘ q) v := by
  apply Vector.ext
  intro i hi
  simp [rearr]

theorem rearr_id (v : Vector α n) : rearr id v = v := by
  apply Vector.ext
  intro i hi
  simp [rearr]

theorem rearr_congr {p q : Fin n → Fin n} (h : ∀ i, p i = q i) (v : Vector α n) : rearr p v = rearr q v := by
  rw [funext h]

/-- `f` applied inside a result. -/
def rmap (f : α → β) : Res α → Res β
  | .ok a => .ok (f a)
  | .err => .err
  | .panic => .panic
  | .timeout => .timeout

theorem swapCells_map (f : α → β) (l : List (Nat × Nat)) (v : Vector α n) :
    swapCells l (v.map f) = rmap (Vector.map f) (swapCells l v) := by
  induction l generalizing v with
  | nil => rfl
  | cons p rest ih =>
    obtain ⟨i, j⟩ := p
    unfold swapCells
    by_cases hij : i = j
    · simp [hij, rmap]
    · rw [if_neg hij, if_neg hij]
      by_cases h1 : i < n
      · rw [dif_pos h1, dif_pos h1]
        by_cases h2 : j < n
        · rw [dif_pos h2, dif_pos h2]
          simp only
          rw [← ih]
          congr 1
          simp
        · rw [dif_neg h2, dif_neg h2]; rfl
      · rw [dif_neg h1, dif_neg h1]; rfl

/-- The vector `[0, 1, .., n - 1]`. -/
def indices (n : Nat) : Vector (Fin n) n := ⟨(List.finRange n).toArray, by simp⟩

theorem map_indices (v : Vector α n) : (indices n).map (fun i => v[i]) = v := by
  apply Vector.ext
  intro i hi
  simp [indices]

/-- The list of swaps moves entry `p i` to place `i` (a boolean check on numbers). -/
def movesBy (n : Nat) (l : List (Nat × Nat)) (p : Nat → Nat) : Bool :=
  match swapCells l (indices n) with
  | .ok w => w.toArray.toList.map Fin.val == (List.range n).map p
  | _ => false

/-- What a list of swaps does to the indices, it does to every vector. -/
theorem swapCells_of_movesBy {l : List (Nat × Nat)} {p : Fin n → Fin n} {q : Nat → Nat}
    (h : movesBy n l q = true) (hq : ∀ i : Fin n, q i.val = (p i).val) (v : Vector α n) :
    swapCells l v = .ok (rearr p v) := by
  conv_lhs => rw [← map_indices v]
  rw [swapCells_map]
  unfold movesBy at h
  split at h
  · rename_i w hw
    rw [hw]
    simp only [rmap]
    congr 1
    apply Vector.ext
    intro i hi
    rw [beq_iff_eq] at h
    have h2 := congrArg (fun l => l[i]?) h
    simp only [List.getElem?_map, List.getElem?_range hi] at h2
    have h3 : i < w.toArray.toList.length := by simp; exact hi
    rw [List.getElem?_eq_getElem h3] at h2
    simp only [Option.map_some, Option.some.injEq] at h2
    have h4 : w[i] = p ⟨i, hi⟩ := by
      apply Fin.ext
      rw [← hq ⟨i, hi⟩, ← h2]
      rfl
    simp only [Vector.getElem_map, rearr_getNat, h4]
  · exact absurd h (by simp)

/-- Cell maps of a board: row map and column map. -/
def cellMap (ρ κ : Fin 9 → Fin 9) : Fin 81 → Fin 81 := fun i =>
  ⟨9 * (ρ ⟨i.val / 9, by omega⟩).val + (κ ⟨i.val % 9, by omega⟩).val, by omega⟩

/-- Cell maps of a band. -/
def bandMap (ρ : Fin 3 → Fin 3) (κ : Fin 9 → Fin 9) : Fin 27 → Fin 27 := fun i =>
  ⟨9 * (ρ ⟨i.val / 9, by omega⟩).val + (κ ⟨i.val % 9, by omega⟩).val, by omega⟩

theorem cellMap_comp (ρ κ ρ' κ' : Fin 9 → Fin 9) :
    cellMap ρ κ ∘ cellMap ρ' κ' = cellMap (ρ ∘ ρ') (κ ∘ κ') := by
  funext i
  apply Fin.ext
  simp only [cellMap, Function.comp]
  have h1 : ∀ a b : Fin 9, (9 * a.val + b.val) / 9 = a.val := by intro a b; omega
  have h2 : ∀ a b : Fin 9, (9 * a.val + b.val) % 9 = b.val := by intro a b; omega
  simp only [h1, h2, Fin.eta]

theorem bandMap_comp (ρ ρ' : Fin 3 → Fin 3) (κ κ' : Fin 9 → Fin 9) :
    bandMap ρ κ ∘ bandMap ρ' κ' = bandMap (ρ ∘ ρ') (κ ∘ κ') := by
  funext i
  apply Fin.ext
  simp only [bandMap, Function.comp]
  have h1 : ∀ (a : Fin 3) (b : Fin 9), (9 * a.val + b.val) / 9 = a.val := by intro a b; omega
  have h2 : ∀ (a : Fin 3) (b : Fin 9), (9 * a.val + b.val) % 9 = b.val := by intro a b; omega
  simp only [h1, h2, Fin.eta]

/-- Swapping two of nine. -/
def swp {k : Nat} (a b : Fin k) : Fin k → Fin k := fun x => if x = a then b else if x = b then a else x

/-- A map of the three chutes, on the nine lines. -/
def chute (p : Fin 3 → Fin 3) : Fin 9 → Fin 9 := fun x =>
  ⟨3 * (p ⟨x.val / 3, by omega⟩).val + x.val % 3, by omega⟩

/-- A map of the three lines of chute `b`, on the nine lines. -/
def inner (b : Fin 3) (p : Fin 3 → Fin 3) : Fin 9 → Fin 9 := fun x =>
  if x.val / 3 = b.val then ⟨3 * b.val + (p ⟨x.val % 3, by omega⟩).val, by omega⟩ else x

/-- Swapping numbers. -/
def nswp (a b x : Nat) : Nat := if x = a then b else if x = b then a else x

theorem nswp_val {k : Nat} (a b x : Fin k) : nswp a b x = (swp a b x).val := by
  unfold nswp swp
  split_ifs <;> simp_all [Fin.ext_iff]

theorem swp_self {k : Nat} (a : Fin k) : swp a a = id := by
  funext x
  unfold swp
  split_ifs <;> simp_all

theorem cellMap_id : cellMap id id = id := by
  funext i
  apply Fin.ext
  simp only [cellMap, id]
  omega

theorem bandMap_id : bandMap id id = id := by
  funext i
  apply Fin.ext
  simp only [bandMap, id]
  omega

/-- Check for all different `a, b < k`. -/
def allPairs (k : Nat) (f : Nat → Nat → Bool) : Bool :=
  (List.range k).all (fun a => (List.range k).all (fun b => a == b || f a b))

theorem allPairs_spec {k : Nat} {f : Nat → Nat → Bool} (h : allPairs k f = true) (a b : Nat) (ha : a < k)
    (hb : b < k) (hab : a ≠ b) : f a b = true := by
  unfold allPairs at h
  have h1 := List.all_eq_true.mp h a (List.mem_range.mpr ha)
  have h2 := List.all_eq_true.mp h1 b (List.mem_range.mpr hb)
  simpa [hab] using h2

theorem swapRows_check : allPairs 9 (fun a b =>
    movesBy 81 ((List.range' (a * 9) 9).zip (List.range' (b * 9) 9))
      (fun i => 9 * nswp a b (i / 9) + i % 9)) = true := by decide +kernel

theorem swapRows_eq (v : Vector α 81) (a b : Fin 9) :
    swapRows v a b = .ok (rearr (cellMap (swp a b) id) v) := by
  unfold swapRows
  by_cases h : a = b
  · subst h
    rw [if_pos rfl, swp_self, cellMap_id, rearr_id]
  · have h' : a.val ≠ b.val := fun h' => h (Fin.ext h')
    rw [if_neg h']
    simp only [Res.assert, decide_eq_true a.isLt, decide_eq_true b.isLt]
    exact swapCells_of_movesBy (allPairs_spec swapRows_check a b a.isLt b.isLt h')
      (fun i => by simp only [cellMap, ← nswp_val, id]) v

theorem swapCols_check : allPairs 9 (fun a b =>
    movesBy 81 ((List.range 9).map (fun row => (row * 9 + a, row * 9 + b)))
      (fun i => 9 * (i / 9) + nswp a b (i % 9))) = true := by decide +kernel

theorem swapCols_eq (v : Vector α 81) (a b : Fin 9) :
    swapCols v a b = .ok (rearr (cellMap id (swp a b)) v) := by
  unfold swapCols
  by_cases h : a = b
  · subst h
    rw [if_pos rfl, swp_self, cellMap_id, rearr_id]
  · have h' : a.val ≠ b.val := fun h' => h (Fin.ext h')
    rw [if_neg h']
    simp only [Res.assert, decide_eq_true a.isLt, decide_eq_true b.isLt]
    exact swapCells_of_movesBy (allPairs_spec swapCols_check a b a.isLt b.isLt h')
      (fun i => by simp only [cellMap, ← nswp_val, id]) v

theorem swapColsInBand_check : allPairs 9 (fun a b =>
    movesBy 27 ((List.range 3).map (fun row => (row * 9 + a, row * 9 + b)))
      (fun i => 9 * (i / 9) + nswp a b (i % 9))) = true := by decide +kernel

theorem swapColsInBand_eq (v : Vector α 27) (a b : Fin 9) :
    swapColsInBand v a b = .ok (rearr (bandMap id (swp a b)) v) := by
  unfold swapColsInBand
  by_cases h : a = b
  · subst h
    rw [if_pos rfl, swp_self, bandMap_id, rearr_id]
  · have h' : a.val ≠ b.val := fun h' => h (Fin.ext h')
    rw [if_neg h']
    simp only [Res.assert, decide_eq_true a.isLt, decide_eq_true b.isLt]
    exact swapCells_of_movesBy (allPairs_spec swapColsInBand_check a b a.isLt b.isLt h')
      (fun i => by simp only [bandMap, ← nswp_val, id]) v

theorem swapRowsInBand_check : allPairs 3 (fun a b =>
    movesBy 27 ((List.range' (a * 9) 9).zip (List.range' (b * 9) 9))
      (fun i => 9 * nswp a b (i / 9) + i % 9)) = true := by decide +kernel

theorem swapRowsInBand_eq (v : Vector α 27) (a b : Fin 3) :
    swapRowsInBand v a b = .ok (rearr (bandMap (swp a b) id) v) := by
  unfold swapRowsInBand swapRows
  have ha : a.val < 9 := by omega
  have hb : b.val < 9 := by omega
  simp only [Res.assert, decide_eq_true a.isLt, decide_eq_true b.isLt]
  show (if a.val = b.val then _ else _) = _
  by_cases h : a = b
  · subst h
    rw [if_pos rfl, swp_self, bandMap_id, rearr_id]
  · have h' : a.val ≠ b.val := fun h' => h (Fin.ext h')
    rw [if_neg h']
    simp only [decide_eq_true ha, decide_eq_true hb]
    exact swapCells_of_movesBy (allPairs_spec swapRowsInBand_check a b a.isLt b.isLt h')
      (fun i => by simp only [bandMap, ← nswp_val, id]) v

/-- Row and column exchanged. -/
def flipCell : Fin 81 → Fin 81 := fun i => ⟨9 * (i.val % 9) + i.val / 9, by omega⟩

theorem transpose_check : movesBy 81 ((List.range 9).flatMap (fun row =>
    (List.range' (row + 1) (9 - (row + 1))).map (fun col => (row * 9 + col, col * 9 + row))))
    (fun i => 9 * (i % 9) + i / 9) = true := by decide +kernel

theorem transpose_eq (v : Vector α 81) : transpose v = .ok (rearr flipCell v) :=
  swapCells_of_movesBy transpose_check (fun _ => rfl) v

theorem chute_comp (p q : Fin 3 → Fin 3) : chute p ∘ chute q = chute (p ∘ q) := by
  funext x
  apply Fin.ext
  simp only [chute, Function.comp]
  have h1 : ∀ (a : Fin 3) (b : Nat), (3 * a.val + b % 3) / 3 = a.val := by intro a b; omega
  have h2 : ∀ (a : Fin 3) (b : Nat), (3 * a.val + b % 3) % 3 = b % 3 := by intro a b; omega
  simp only [h1, h2, Fin.eta]

theorem chute_id : chute id = id := by
  funext x
  apply Fin.ext
  simp only [chute, id]
  omega

theorem inner_comp (b : Fin 3) (p q : Fin 3 → Fin 3) : inner b p ∘ inner b q = inner b (p ∘ q) := by
  funext x
  apply Fin.ext
  simp only [inner, Function.comp]
  have h1 : ∀ (a c : Fin 3), (3 * a.val + c.val) / 3 = a.val := by intro a c; omega
  have h2 : ∀ (a c : Fin 3), (3 * a.val + c.val) % 3 = c.val := by intro a c; omega
  by_cases h : x.val / 3 = b.val
  · simp only [h, if_pos, h1, h2, Fin.eta]
  · simp only [h, if_neg, not_false_eq_true]

theorem swp_chute : ∀ a b : Fin 3, ∀ (x : Fin 9),
    swp (⟨a.val * 3 + 0, by omega⟩ : Fin 9) ⟨b.val * 3 + 0, by omega⟩
      (swp (⟨a.val * 3 + 1, by omega⟩ : Fin 9) ⟨b.val * 3 + 1, by omega⟩
        (swp (⟨a.val * 3 + 2, by omega⟩ : Fin 9) ⟨b.val * 3 + 2, by omega⟩ x)) = chute (swp a b) x := by
  decide +kernel

theorem swapStacks_eq (v : Vector α 81) (a b : Fin 3) :
    swapStacks v a b = .ok (rearr (cellMap id (chute (swp a b))) v) := by
  unfold swapStacks
  by_cases h : a = b
  · subst h
    rw [if_pos rfl, swp_self, chute_id, cellMap_id, rearr_id]
  · have h' : a.val ≠ b.val := fun h' => h (Fin.ext h')
    rw [if_neg h']
    simp only [Res.assert, decide_eq_true a.isLt, decide_eq_true b.isLt, if_true, Res.ok_bind]
    show List.foldlM (m := Res) _ v [0, 1, 2] = _
    have e : ∀ (w : Vector α 81) (k : Nat) (hk : k < 3), swapCols w (a.val * 3 + k) (b.val * 3 + k) =
        .ok (rearr (cellMap id (swp ⟨a.val * 3 + k, by omega⟩ ⟨b.val * 3 + k, by omega⟩)) w) :=
      fun w k hk => swapCols_eq w ⟨a.val * 3 + k, by omega⟩ ⟨b.val * 3 + k, by omega⟩
    simp only [List.foldlM_cons, List.foldlM_nil]
    rw [e v 0 (by omega), Res.ok_bind]
    rw [e _ 1 (by omega), Res.ok_bind]
    rw [e _ 2 (by omega), Res.ok_bind]
    rw [rearr_rearr, rearr_rearr, cellMap_comp, cellMap_comp]
    have : swp (⟨a.val * 3 + 0, by omega⟩ : Fin 9) ⟨b.val * 3 + 0, by omega⟩ ∘
      swp (⟨a.val * 3 + 1, by omega⟩ : Fin 9) ⟨b.val * 3 + 1, by omega⟩ ∘
        swp (⟨a.val * 3 + 2, by omega⟩ : Fin 9) ⟨b.val * 3 + 2, by omega⟩ =
        chute (swp a b) := funext (swp_chute a b)
    rw [this]
    rfl

theorem swapStackInBand_eq (v : Vector α 27) (a b : Fin 3) :
    swapStackInBand v a b = .ok (rearr (bandMap id (chute (swp a b))) v) := by
  unfold swapStackInBand
  by_cases h : a = b
  · subst h
    rw [if_pos rfl, swp_self, chute_id, bandMap_id, rearr_id]
  · have h' : a.val ≠ b.val := fun h' => h (Fin.ext h')
    rw [if_neg h']
    simp only [Res.assert, decide_eq_true a.isLt, decide_eq_true b.isLt, if_true, Res.ok_bind]
    show List.foldlM (m := Res) _ v [0, 1, 2] = _
    have e : ∀ (w : Vector α 27) (k : Nat) (hk : k < 3), swapColsInBand w (a.val * 3 + k) (b.val * 3 + k) =
        .ok (rearr (bandMap id (swp ⟨a.val * 3 + k, by omega⟩ ⟨b.val * 3 + k, by omega⟩)) w) :=
      fun w k hk => swapColsInBand_eq w ⟨a.val * 3 + k, by omega⟩ ⟨b.val * 3 + k, by omega⟩
    simp only [List.foldlM_cons, List.foldlM_nil]
    rw [e v 0 (by omega), Res.ok_bind]
    rw [e _ 1 (by omega), Res.ok_bind]
    rw [e _ 2 (by omega), Res.ok_bind]
    rw [rearr_rearr, rearr_rearr, bandMap_comp, bandMap_comp]
    have : swp (⟨a.val * 3 + 0, by omega⟩ : Fin 9) ⟨b.val * 3 + 0, by omega⟩ ∘
      swp (⟨a.val * 3 + 1, by omega⟩ : Fin 9) ⟨b.val * 3 + 1, by omega⟩ ∘
        swp (⟨a.val * 3 + 2, by omega⟩ : Fin 9) ⟨b.val * 3 + 2, by omega⟩ =
        chute (swp a b) := funext (swp_chute a b)
    rw [this]
    rfl

theorem swapBands_eq (v : Vector α 81) (a b : Fin 3) :
    swapBands v a b = .ok (rearr (cellMap (chute (swp a b)) id) v) := by
  unfold swapBands
  by_cases h : a = b
  · subst h
    rw [if_pos rfl, swp_self, chute_id, cellMap_id, rearr_id]
  · have h' : a.val ≠ b.val := fun h' => h (Fin.ext h')
    rw [if_neg h']
    simp only [Res.assert, decide_eq_true a.isLt, decide_eq_true b.isLt, if_true, Res.ok_bind]
    show List.foldlM (m := Res) _ v [0, 1, 2] = _
    have e : ∀ (w : Vector α 81) (k : Nat) (hk : k < 3), swapRows w (a.val * 3 + k) (b.val * 3 + k) =
        .ok (rearr (cellMap (swp ⟨a.val * 3 + k, by omega⟩ ⟨b.val * 3 + k, by omega⟩) id) w) :=
      fun w k hk => swapRows_eq w ⟨a.val * 3 + k, by omega⟩ ⟨b.val * 3 + k, by omega⟩
    simp only [List.foldlM_cons, List.foldlM_nil]
    rw [e v 0 (by omega), Res.ok_bind]
    rw [e _ 1 (by omega), Res.ok_bind]
    rw [e _ 2 (by omega), Res.ok_bind]
    rw [rearr_rearr, rearr_rearr, cellMap_comp, cellMap_comp]
    have : swp (⟨a.val * 3 + 0, by omega⟩ : Fin 9) ⟨b.val * 3 + 0, by omega⟩ ∘
      swp (⟨a.val * 3 + 1, by omega⟩ : Fin 9) ⟨b.val * 3 + 1, by omega⟩ ∘
        swp (⟨a.val * 3 + 2, by omega⟩ : Fin 9) ⟨b.val * 3 + 2, by omega⟩ =
        chute (swp a b) := funext (swp_chute a b)
    rw [this]
    rfl

/-- The permutation of three things stored in a `Permutation3`. -/
def perm3 (a : Fin 3) (b : Fin 2) : Equiv.Perm (Fin 3) :=
  Equiv.swap 0 a * Equiv.swap 1 ⟨1 + b.val, by omega⟩

theorem perm3_bijective : Function.Bijective (fun ab : Fin 3 × Fin 2 => perm3 ab.1 ab.2) := by decide +kernel

/-- A `Permutation3` as the code builds them. -/
def P3 (a : Fin 3) (b : Fin 2) : Permutation3 := ⟨a, b⟩

theorem perm3_eq (a : Fin 3) (b : Fin 2) :
    ⇑(perm3 a b) = swp 0 a ∘ swp 1 ⟨1 + b.val, by omega⟩ := by
  funext x; decide +revert +kernel

theorem permute_swapBands (v : Vector α 81) (a : Fin 3) (b : Fin 2) :
    permute v (P3 a b) 0 swapBands = .ok (rearr (cellMap (chute (perm3 a b)) id) v) := by
  have e1 := swapBands_eq v 0 a
  have e2 := fun w : Vector α 81 => swapBands_eq w 1 ⟨1 + b.val, by omega⟩
  unfold permute P3
  simp only [Nat.zero_add]
  rw [show swapBands v 0 a.val = _ from e1]
  show swapBands _ _ _ = _
  rw [show swapBands _ 1 (1 + b.val) = _ from e2 _, rearr_rearr, cellMap_comp, chute_comp, perm3_eq]
  rfl

theorem permute_swapStacks (v : Vector α 81) (a : Fin 3) (b : Fin 2) :
    permute v (P3 a b) 0 swapStacks = .ok (rearr (cellMap id (chute (perm3 a b))) v) := by
  have e1 := swapStacks_eq v 0 a
  have e2 := fun w : Vector α 81 => swapStacks_eq w 1 ⟨1 + b.val, by omega⟩
  unfold permute P3
  simp only [Nat.zero_add]
  rw [show swapStacks v 0 a.val = _ from e1]
  show swapStacks _ _ _ = _
  rw [show swapStacks _ 1 (1 + b.val) = _ from e2 _, rearr_rearr, cellMap_comp, chute_comp, perm3_eq]
  rfl

theorem swp_inner : ∀ (k : Fin 3) (a : Fin 3) (b : Fin 2) (x : Fin 9),
    swp (⟨3 * k.val, by omega⟩ : Fin 9) ⟨3 * k.val + a.val, by omega⟩
      (swp (⟨3 * k.val + 1, by omega⟩ : Fin 9) ⟨3 * k.val + 1 + b.val, by omega⟩ x) =
      inner k (perm3 a b) x := by
  decide +kernel

theorem permute_swapRows (v : Vector α 81) (k a : Fin 3) (b : Fin 2) :
    permute v (P3 a b) (3 * k.val) swapRows = .ok (rearr (cellMap (inner k (perm3 a b)) id) v) := by
  have e1 := swapRows_eq v ⟨3 * k.val, by omega⟩ ⟨3 * k.val + a.val, by omega⟩
  have e2 := fun w : Vector α 81 => swapRows_eq w ⟨3 * k.val + 1, by omega⟩ ⟨3 * k.val + 1 + b.val, by omega⟩
  unfold permute P3
  simp only
  rw [show swapRows v (3 * k.val) (3 * k.val + a.val) = _ from e1]
  show swapRows _ _ _ = _
  rw [show swapRows _ (3 * k.val + 1) (3 * k.val + 1 + b.val) = _ from e2 _, rearr_rearr, cellMap_comp]
  have := funext (swp_inner k a b)
  rw [← this]
  rfl

theorem permute_swapCols (v : Vector α 81) (k a : Fin 3) (b : Fin 2) :
    permute v (P3 a b) (3 * k.val) swapCols = .ok (rearr (cellMap id (inner k (perm3 a b))) v) := by
  have e1 := swapCols_eq v ⟨3 * k.val, by omega⟩ ⟨3 * k.val + a.val, by omega⟩
  have e2 := fun w : Vector α 81 => swapCols_eq w ⟨3 * k.val + 1, by omega⟩ ⟨3 * k.val + 1 + b.val, by omega⟩
  unfold permute P3
  simp only
  rw [show swapCols v (3 * k.val) (3 * k.val + a.val) = _ from e1]
  show swapCols _ _ _ = _
  rw [show swapCols _ (3 * k.val + 1) (3 * k.val + 1 + b.val) = _ from e2 _, rearr_rearr, cellMap_comp]
  have := funext (swp_inner k a b)
  rw [← this]
  rfl

theorem permute_swapColsInBand (v : Vector α 27) (k a : Fin 3) (b : Fin 2) :
    permute v (P3 a b) (3 * k.val) swapColsInBand = .ok (rearr (bandMap id (inner k (perm3 a b))) v) := by
  have e1 := swapColsInBand_eq v ⟨3 * k.val, by omega⟩ ⟨3 * k.val + a.val, by omega⟩
  have e2 := fun w : Vector α 27 =>
    swapColsInBand_eq w ⟨3 * k.val + 1, by omega⟩ ⟨3 * k.val + 1 + b.val, by omega⟩
  unfold permute P3
  simp only
  rw [show swapColsInBand v (3 * k.val) (3 * k.val + a.val) = _ from e1]
  show swapColsInBand _ _ _ = _
  rw [show swapColsInBand _ (3 * k.val + 1) (3 * k.val + 1 + b.val) = _ from e2 _, rearr_rearr, bandMap_comp]
  have := funext (swp_inner k a b)
  rw [← this]
  rfl

theorem permute_swapRowsInBand (v : Vector α 27) (a : Fin 3) (b : Fin 2) :
    permute v (P3 a b) 0 swapRowsInBand = .ok (rearr (bandMap (perm3 a b) id) v) := by
  have e1 := swapRowsInBand_eq v 0 a
  have e2 := fun w : Vector α 27 => swapRowsInBand_eq w 1 ⟨1 + b.val, by omega⟩
  unfold permute P3
  simp only [Nat.zero_add]
  rw [show swapRowsInBand v 0 a.val = _ from e1, Res.ok_bind,
    show swapRowsInBand _ 1 (1 + b.val) = _ from e2 _, rearr_rearr, bandMap_comp, perm3_eq]
  rfl

end Verif.Canon
