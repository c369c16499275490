import Verif.Model.Sudoku
import Verif.Proofs.SolvedGrid

/-! `is_solved` -/
namespace Verif.Sudoku
open Verif.Pos

/-- Cell `c` lies in house `h` (0-8 rows, 9-17 columns, 18-26 blocks). -/
def InHouse (h : Fin 27) (c : Fin 81) : Prop :=
  h = rowHouse (cellRow c) ∨ h = colHouse (cellCol c) ∨ h = blockHouse (cellBlock c)

instance (h : Fin 27) (c : Fin 81) : Decidable (InHouse h c) := by unfold InHouse; infer_instance

theorem inHouse_iff_cellAt : ∀ (h : Fin 27) (c : Fin 81), InHouse h c ↔ ∃ p, houseCellAt h p = c := by
  decide +kernel

theorem houseCellAt_inj : ∀ (h : Fin 27) (p q : Fin 9), houseCellAt h p = houseCellAt h q → p = q := by
  decide +kernel

theorem sameHouse_of_inHouse (h : Fin 27) (c c' : Fin 81) (h1 : InHouse h c) (h2 : InHouse h c') :
    SameHouse c c' := by
  have hc := c.isLt
  have hc' := c'.isLt
  have key : ∀ a b : Fin 27, h = a → h = b → a.val = b.val := by rintro a b rfl rfl; rfl
  unfold SameHouse blockOf rowOf colOf
  rcases h1 with h1 | h1 | h1 <;> rcases h2 with h2 | h2 | h2 <;>
    (have := key _ _ h1 h2
     simp only [rowHouse, colHouse, blockHouse, cellRow, cellCol, cellBlock] at this
     omega)

theorem inHouse_of_sameHouse {c c' : Fin 81} (hs : SameHouse c c') : ∃ h, InHouse h c ∧ InHouse h c' := by
  rcases hs with e | e | e
  · refine ⟨rowHouse (cellRow c), Or.inl rfl, Or.inl ?_⟩
    exact congrArg rowHouse (Fin.ext e)
  · refine ⟨colHouse (cellCol c), Or.inr (Or.inl rfl), Or.inr (Or.inl ?_)⟩
    exact congrArg colHouse (Fin.ext e)
  · refine ⟨blockHouse (cellBlock c), Or.inr (Or.inr rfl), Or.inr (Or.inr ?_)⟩
    refine congrArg blockHouse (Fin.ext ?_)
    simp only [blockOf, rowOf, colOf] at e
    simp only [cellBlock]
    omega

theorem getLsbD_asSet {i j : Nat} (h : i < 16) : (Bitset.asSet 16 i).getLsbD j = true ↔ i = j := by
  unfold Bitset.asSet
  rw [← BitVec.twoPow_eq, BitVec.getLsbD_twoPow]
  simp [h]

theorem set_or_get (a : Vector (BitVec 16) 27) (h n : Fin 27) (m : BitVec 16) (k : Nat) :
    ((a.set h (Bitset.union a[h] m))[n]).getLsbD k = true ↔
      a[n].getLsbD k = true ∨ (n = h ∧ m.getLsbD k = true) := by
  by_cases e : n = h
  · subst e
    simp [Bitset.union]
  · have e' : h.val ≠ n.val := fun x => e (Fin.ext x.symm)
    have : (a.set h (Bitset.union a[h] m))[n] = a[n] := by
      simp only [Fin.getElem_fin]
      rw [Vector.getElem_set_ne]
      exact e'
    rw [this]; simp [e]

theorem isSolvedStep_some {g : Grid} {hd : Vector (BitVec 16) 27} {c : Fin 81} (h : 1 ≤ g[c] ∧ g[c] ≤ 9) :
    ∃ hd', isSolvedStep g hd c = some hd' ∧ ∀ (n : Fin 27) (k : Nat), hd'[n].getLsbD k = true ↔
      hd[n].getLsbD k = true ∨ (InHouse n c ∧ g[c].toNat = k + 1) := by
  have h1 : 1 ≤ g[c].toNat := h.1
  have h2 : g[c].toNat ≤ 9 := h.2
  have hd : digitNewChecked g[c] = some g[c] := by
    unfold digitNewChecked
    rw [if_neg (by show ¬ (9 < g[c].toNat); omega), if_neg (by intro e; rw [e] at h1; simp at h1)]
  unfold isSolvedStep
  rw [hd]
  refine ⟨_, rfl, fun n k => ?_⟩
  have hk : (Bitset.asSet 16 (digitIndex g[c])).getLsbD k = true ↔ g[c].toNat = k + 1 := by
    rw [getLsbD_asSet (by unfold digitIndex; omega)]
    unfold digitIndex; omega
  rw [set_or_get, set_or_get, set_or_get, hk]
  unfold InHouse
  tauto

theorem isSolvedStep_none {g : Grid} {hd : Vector (BitVec 16) 27} {c : Fin 81} (h : ¬ (1 ≤ g[c] ∧ g[c] ≤ 9)) :
    isSolvedStep g hd c = none := by
  unfold isSolvedStep
  have : digitNewChecked g[c] = none := by
    unfold digitNewChecked
    by_cases h9 : g[c] > 9
    · rw [if_pos h9]
    · rw [if_neg h9, if_pos]
      by_contra h0
      apply h
      have h9' : ¬ (9 < g[c].toNat) := h9
      have h0' : g[c].toNat ≠ 0 := fun e => h0 (UInt8.toNat_inj.1 e)
      exact ⟨by show 1 ≤ g[c].toNat; omega, by show g[c].toNat ≤ 9; omega⟩
  rw [this]

theorem fold_spec (g : Grid) (l : List (Fin 81)) (hd : Vector (BitVec 16) 27) :
    ((∀ c ∈ l, 1 ≤ g[c] ∧ g[c] ≤ 9) → ∃ hd', l.foldlM (isSolvedStep g) hd = some hd' ∧
      ∀ (n : Fin 27) (k : Nat), hd'[n].getLsbD k = true ↔
        hd[n].getLsbD k = true ∨ ∃ c ∈ l, InHouse n c ∧ g[c].toNat = k + 1) ∧
    ((∃ c ∈ l, ¬ (1 ≤ g[c] ∧ g[c] ≤ 9)) → l.foldlM (isSolvedStep g) hd = none) := by
  induction l generalizing hd with
  | nil => simp
  | cons c l ih =>
    rw [List.foldlM_cons]
    by_cases hc : 1 ≤ g[c] ∧ g[c] ≤ 9
    · obtain ⟨hd1, e1, h1⟩ := isSolvedStep_some (hd := hd) hc
      rw [e1]
      simp only [Option.bind_eq_bind, Option.bind_some]
      constructor
      · intro hall
        obtain ⟨hd2, e2, h2⟩ := (ih hd1).1 (fun c' hc' => hall c' (List.mem_cons_of_mem _ hc'))
        refine ⟨hd2, e2, fun n k => ?_⟩
        rw [h2, h1]
        simp only [List.mem_cons, exists_eq_or_imp]
        tauto
      · rintro ⟨c', hc', hn⟩
        rcases List.mem_cons.1 hc' with e | e
        · subst e; exact absurd hc hn
        · exact (ih hd1).2 ⟨c', e, hn⟩
    · constructor
      · intro hall; exact absurd (hall c List.mem_cons_self) hc
      · intro _; rw [isSolvedStep_none hc]; rfl

theorem getLsbD_ALL9 (k : Nat) : (Bitset.ALL 16 9).getLsbD k = decide (k < 9) := by
  have : Bitset.ALL 16 9 = 0x1ff#16 := by decide
  rw [this]
  by_cases h : k < 16
  · revert k; decide
  · rw [BitVec.getLsbD_of_ge _ _ (by omega)]
    simp; omega

theorem Solved.exists_inHouse {g : Grid} (h : Solved g) (n : Fin 27) (d : Fin 9) :
    ∃ c, InHouse n c ∧ g[c].toNat = d.val + 1 := by
  obtain ⟨p, hp⟩ := h.exists_in (houseCellAt n) (fun p q => houseCellAt_inj n p q)
    (fun p q => sameHouse_of_inHouse n _ _ ((inHouse_iff_cellAt _ _).2 ⟨p, rfl⟩) ((inHouse_iff_cellAt _ _).2 ⟨q, rfl⟩)) d
  exact ⟨_, (inHouse_iff_cellAt _ _).2 ⟨p, rfl⟩, hp⟩

/-- All cells filled and every house contains every digit: then no digit repeats. -/
theorem solved_of_all {g : Grid} (h1 : ∀ c : Fin 81, 1 ≤ g[c] ∧ g[c] ≤ 9)
    (h2 : ∀ (n : Fin 27) (d : Fin 9), ∃ c, InHouse n c ∧ g[c].toNat = d.val + 1) : Solved g := by
  refine ⟨h1, fun c c' hne hs e => ?_⟩
  obtain ⟨n, hn, hn'⟩ := inHouse_of_sameHouse hs
  obtain ⟨p, rfl⟩ := (inHouse_iff_cellAt _ _).1 hn
  obtain ⟨q, rfl⟩ := (inHouse_iff_cellAt _ _).1 hn'
  have hb : ∀ c : Fin 81, 1 ≤ g[c].toNat ∧ g[c].toNat ≤ 9 := fun c => ⟨(h1 c).1, (h1 c).2⟩
  let f : Fin 9 → Fin 9 := fun p => ⟨g[houseCellAt n p].toNat - 1, by have := hb (houseCellAt n p); omega⟩
  have hsurj : Function.Surjective f := by
    intro d
    obtain ⟨c, hc, hv⟩ := h2 n d
    obtain ⟨p, rfl⟩ := (inHouse_iff_cellAt _ _).1 hc
    refine ⟨p, Fin.ext ?_⟩
    show g[houseCellAt n p].toNat - 1 = d.val
    omega
  have hinj := Finite.injective_iff_surjective.2 hsurj
  apply hne
  congr 1
  apply hinj
  apply Fin.ext
  show g[houseCellAt n p].toNat - 1 = g[houseCellAt n q].toNat - 1
  rw [e]

theorem isSolved_iff (g : Grid) : isSolved g = true ↔ Solved g := by
  unfold isSolved
  by_cases hall : ∀ c : Fin 81, 1 ≤ g[c] ∧ g[c] ≤ 9
  · obtain ⟨hd, e, hb⟩ := (fold_spec g (List.finRange 81) (Vector.replicate 27 (Bitset.NONE 16))).1
      (fun c _ => hall c)
    rw [e]
    simp only
    have hb' : ∀ (n : Fin 27) (k : Nat), hd[n].getLsbD k = true ↔ ∃ c, InHouse n c ∧ g[c].toNat = k + 1 := by
      intro n k
      rw [hb]
      have : (Vector.replicate 27 (Bitset.NONE 16))[n] = 0#16 := by simp [Bitset.NONE]
      rw [this]
      simp
    rw [beq_iff_eq]
    constructor
    · intro h
      refine solved_of_all hall fun n d => (hb' n d.val).1 ?_
      have : hd[n] = Bitset.ALL 16 9 := by rw [h]; simp
      rw [this, getLsbD_ALL9]
      simp
    · intro h
      apply Vector.ext
      intro i hi
      simp only [Vector.getElem_replicate]
      apply BitVec.eq_of_getLsbD_eq
      intro k hk
      rw [getLsbD_ALL9]
      rw [Bool.eq_iff_iff, decide_eq_true_iff]
      refine (hb' ⟨i, hi⟩ k).trans ?_
      constructor
      · rintro ⟨c, _, hc⟩
        have : g[c].toNat ≤ 9 := (hall c).2
        omega
      · intro hk'
        exact Solved.exists_inHouse h ⟨i, hi⟩ ⟨k, hk'⟩
  · have hn : ∃ c ∈ List.finRange 81, ¬ (1 ≤ g[c] ∧ g[c] ≤ 9) := by
      by_contra hc
      apply hall
      intro c
      by_contra hcc
      exact hc ⟨c, List.mem_finRange c, hcc⟩
    rw [(fold_spec g _ _).2 hn]
    constructor
    · intro h; cases h
    · intro h; exact absurd h.1 hall

end Verif.Sudoku
