import Verif.Proofs.StratLocked
import Verif.Props.Positions

/-! # The strategy solver: wings and mutant fish -/
namespace Verif.Strat

open Bitset Generator

/-! ## Wings -/

theorem bit_neighbors : ∀ c c' : Fin 81, (Pos.neighborsSet c).getLsbD c'.val = true ↔ Pattern.Sees c' c := by
  unfold Pattern.Sees
  decide +kernel

theorem fits_neighbors (c : Fin 81) : Fits 81 (Pos.neighborsSet c) := by
  have : ∀ (c : Fin 81) (i : Fin 128), (Pos.neighborsSet c).getLsbD i.val = true → i.val < 81 := by decide +kernel
  intro i hi
  exact this c ⟨i, BitVec.lt_of_getLsbD hi⟩ hi

theorem bit_cellCells (c : Fin 81) (i : Nat) : (Pos.cellCells c).getLsbD i = true ↔ i = c.val := by
  have : ∀ (c : Fin 81) (i : Fin 128), (Pos.cellCells c).getLsbD i.val = true ↔ i.val = c.val := by decide +kernel
  constructor
  · intro h
    exact (this c ⟨i, BitVec.lt_of_getLsbD h⟩).mp h
  · rintro rfl
    exact (this c ⟨c.val, by omega⟩).mpr rfl

/-- The pairs of areas searched for pincers. -/
def WingArea (hinge : Fin 81) (areas : Pos.Cells × Pos.Cells) : Prop :=
  Fits 81 areas.1 ∧ Fits 81 areas.2 ∧
  (∀ c : Fin 81, areas.1.getLsbD c.val = true → Pattern.Sees hinge c) ∧
  (∀ c : Fin 81, areas.2.getLsbD c.val = true → Pattern.Sees hinge c) ∧
  ∀ c : Fin 81, ¬ (areas.1.getLsbD c.val = true ∧ areas.2.getLsbD c.val = true)

theorem wingArea_spec (hinge : Fin 81) : ∀ a ∈ [(wingAreas hinge).1, (wingAreas hinge).2.1, (wingAreas hinge).2.2],
    WingArea hinge a := by
  have h1 : ∀ (hinge : Fin 81) (i : Fin 128),
      ∀ a ∈ [(wingAreas hinge).1, (wingAreas hinge).2.1, (wingAreas hinge).2.2],
        (a.1.getLsbD i.val = true → i.val < 81) ∧ (a.2.getLsbD i.val = true → i.val < 81) := by decide +kernel
  have h2 : ∀ (hinge c : Fin 81), ∀ a ∈ [(wingAreas hinge).1, (wingAreas hinge).2.1, (wingAreas hinge).2.2],
      (a.1.getLsbD c.val = true → (hinge ≠ c ∧ SameHouse hinge c)) ∧
      (a.2.getLsbD c.val = true → (hinge ≠ c ∧ SameHouse hinge c)) ∧
      ¬ (a.1.getLsbD c.val = true ∧ a.2.getLsbD c.val = true) := by decide +kernel
  intro a ha
  refine ⟨fun i hi => (h1 hinge ⟨i, BitVec.lt_of_getLsbD hi⟩ a ha).1 hi,
    fun i hi => (h1 hinge ⟨i, BitVec.lt_of_getLsbD hi⟩ a ha).2 hi, fun c hc => (h2 hinge c a ha).1 hc,
    fun c hc => (h2 hinge c a ha).2.1 hc, fun c => (h2 hinge c a ha).2.2⟩

theorem xyz_line : ∀ h c : Fin 81,
    ((without (Pos.rowCells (Pos.cellRow h)) (Pos.blockCells (Pos.cellBlock h))).getLsbD c.val = true →
      inter (Pos.neighborsSet h) (Pos.neighborsSet c) =
        without (without (Pos.rowCells (Pos.cellRow h)) (Pos.cellCells h)) (Pos.cellCells c)) ∧
    ((without (Pos.colCells (Pos.cellCol h)) (Pos.blockCells (Pos.cellBlock h))).getLsbD c.val = true →
      inter (Pos.neighborsSet h) (Pos.neighborsSet c) =
        without (without (Pos.colCells (Pos.cellCol h)) (Pos.cellCells h)) (Pos.cellCells c)) := by decide +kernel

theorem xyz_block : ∀ h c : Fin 81,
    ((without (Pos.blockCells (Pos.cellBlock h)) (Pos.rowCells (Pos.cellRow h))).getLsbD c.val = true →
      inter (Pos.neighborsSet c) (Pos.rowCells (Pos.cellRow h)) =
        inter (Pos.rowCells (Pos.cellRow h)) (Pos.blockCells (Pos.cellBlock h))) ∧
    ((without (Pos.blockCells (Pos.cellBlock h)) (Pos.colCells (Pos.cellCol h))).getLsbD c.val = true →
      inter (Pos.neighborsSet c) (Pos.colCells (Pos.cellCol h)) =
        inter (Pos.colCells (Pos.cellCol h)) (Pos.blockCells (Pos.cellBlock h))) := by decide +kernel

theorem xyz_two : ∀ h : Fin 81,
    (len (without (inter (Pos.rowCells (Pos.cellRow h)) (Pos.blockCells (Pos.cellBlock h))) (Pos.cellCells h)) == 2) = true ∧
    (len (without (inter (Pos.colCells (Pos.cellCol h)) (Pos.blockCells (Pos.cellBlock h))) (Pos.cellCells h)) == 2) = true := by
  decide +kernel

theorem common_eq {N N1 N2 L B H C : Pos.Cells} (h1 : inter N N2 = without (without L H) C) (h2 : inter N1 L = inter L B)
    (h3 : ∀ i, C.getLsbD i = true → B.getLsbD i = false) : inter (inter N N1) N2 = without (inter L B) H := by
  apply BitVec.eq_of_getLsbD_eq
  intro i _
  have e1 := congrArg (fun x => x.getLsbD i) h1
  have e2 := congrArg (fun x => x.getLsbD i) h2
  have e3 := h3 i
  simp only [bit_inter, bit_without] at e1 e2 ⊢
  revert e1 e2 e3
  generalize N.getLsbD i = n
  generalize N1.getLsbD i = n1
  generalize N2.getLsbD i = n2
  generalize L.getLsbD i = l
  generalize B.getLsbD i = b
  generalize H.getLsbD i = h
  generalize C.getLsbD i = c
  revert n n1 n2 l b h c
  decide

theorem xyz_common (hinge c1 c2 : Fin 81) (a : Pos.Cells × Pos.Cells)
    (ha : a ∈ [(wingAreas hinge).1, (wingAreas hinge).2.1]) (h1 : a.1.getLsbD c1.val = true)
    (h2 : a.2.getLsbD c2.val = true) :
    (len (inter (inter (Pos.neighborsSet hinge) (Pos.neighborsSet c1)) (Pos.neighborsSet c2)) == 2) = true := by
  simp only [List.mem_cons, List.not_mem_nil, or_false] at ha
  have hc : ∀ {L : Pos.Cells}, (without L (Pos.blockCells (Pos.cellBlock hinge))).getLsbD c2.val = true →
      ∀ i, (Pos.cellCells c2).getLsbD i = true → (Pos.blockCells (Pos.cellBlock hinge)).getLsbD i = false := by
    intro L h i hi
    rw [bit_cellCells] at hi
    subst hi
    rw [bit_without, Bool.and_eq_true] at h
    simpa using h.2
  rcases ha with rfl | rfl
  · rw [common_eq ((xyz_line hinge c2).1 h2) ((xyz_block hinge c1).1 h1) (hc h2)]
    exact (xyz_two hinge).1
  · rw [common_eq ((xyz_line hinge c2).2 h2) ((xyz_block hinge c1).2 h1) (hc h2)]
    exact (xyz_two hinge).2

/-- The candidates of hinge and pincers. -/
theorem wing_sets {A B H : Finset Nat} (hA : A.card = 2) (hB : B.card = 2) (hAB : (A ∩ B).card = 1)
    (hU : (A ∪ B ∪ H).card = 3) :
    ∃ x y z, x ≠ y ∧ x ≠ z ∧ y ≠ z ∧ (∀ i, i ∈ A ↔ i = x ∨ i = z) ∧ (∀ i, i ∈ B ↔ i = y ∨ i = z) ∧
      (∀ i, i ∈ A ∩ B ↔ i = z) ∧
      (H.card = 2 → (H ∩ A).card = 1 → (H ∩ B).card = 1 → ∀ i, i ∈ H ↔ i = x ∨ i = y) ∧
      (H.card = 3 → ∀ i, i ∈ H ↔ i = x ∨ i = y ∨ i = z) := by
  obtain ⟨z, hz⟩ := Finset.card_eq_one.mp hAB
  have hzAB : z ∈ A ∩ B := by rw [hz]; simp
  obtain ⟨hzA, hzB⟩ := Finset.mem_inter.mp hzAB
  obtain ⟨x, hx⟩ := Finset.card_eq_one.mp (show (A.erase z).card = 1 by rw [Finset.card_erase_of_mem hzA]; omega)
  obtain ⟨y, hy⟩ := Finset.card_eq_one.mp (show (B.erase z).card = 1 by rw [Finset.card_erase_of_mem hzB]; omega)
  have hxA : x ∈ A.erase z := by rw [hx]; simp
  have hyB : y ∈ B.erase z := by rw [hy]; simp
  rw [Finset.mem_erase] at hxA hyB
  have mA : ∀ i, i ∈ A ↔ i = x ∨ i = z := by
    intro i
    rw [← Finset.insert_erase hzA, Finset.mem_insert, hx, Finset.mem_singleton, or_comm]
  have mB : ∀ i, i ∈ B ↔ i = y ∨ i = z := by
    intro i
    rw [← Finset.insert_erase hzB, Finset.mem_insert, hy, Finset.mem_singleton, or_comm]
  have hxy : x ≠ y := by
    rintro rfl
    have : x ∈ A ∩ B := Finset.mem_inter.mpr ⟨hxA.2, hyB.2⟩
    rw [hz, Finset.mem_singleton] at this
    exact hxA.1 this
  have hsub : A ∪ B ⊆ A ∪ B ∪ H := Finset.subset_union_left
  have hcU : (A ∪ B).card = 3 := by
    have := Finset.card_union_add_card_inter A B
    omega
  have hH : H ⊆ A ∪ B := by
    rw [Finset.eq_of_subset_of_card_le hsub (by omega)]
    exact Finset.subset_union_right
  have mH : ∀ i ∈ H, i = x ∨ i = y ∨ i = z := by
    intro i hi
    have := Finset.mem_union.mp (hH hi)
    rw [mA, mB] at this
    tauto
  refine ⟨x, y, z, hxy, hxA.1, hyB.1, mA, mB, ?_, ?_, ?_⟩
  · intro i; rw [hz, Finset.mem_singleton]
  · intro hc h1 h2
    have hzH : z ∉ H := by
      intro hzH
      have no : ∀ w, w ≠ z → w ∈ H → ∀ {C : Finset Nat}, z ∈ C → w ∈ C → (H ∩ C).card = 1 → False := by
        intro w hw hwH C hzC hwC hcard
        obtain ⟨u, hu⟩ := Finset.card_eq_one.mp hcard
        have e1 : z ∈ H ∩ C := Finset.mem_inter.mpr ⟨hzH, hzC⟩
        have e2 : w ∈ H ∩ C := Finset.mem_inter.mpr ⟨hwH, hwC⟩
        rw [hu, Finset.mem_singleton] at e1 e2
        exact hw (e2.trans e1.symm)
      have : H ⊆ {z} := by
        intro i hi
        rw [Finset.mem_singleton]
        rcases mH i hi with rfl | rfl | rfl
        · exact absurd (no _ hxA.1 hi hzA hxA.2 h1) id
        · exact absurd (no _ hyB.1 hi hzB hyB.2 h2) id
        · rfl
      have := Finset.card_le_card this
      simp at this
      omega
    have hsub : H ⊆ {x, y} := by
      intro i hi
      rcases mH i hi with rfl | rfl | rfl
      · simp
      · simp
      · exact absurd hi hzH
    have := Finset.eq_of_subset_of_card_le hsub (by rw [hc, Finset.card_pair hxy])
    intro i
    rw [this]; simp
  · intro hc
    have := Finset.eq_of_subset_of_card_le hH (by omega)
    intro i
    rw [this, Finset.mem_union, mA, mB]
    tauto

/-- What the search knows about a wing. -/
structure WingOK (cp : Vector DigitSet 81) (withZ : Bool) (hinge p1 p2 : Fin 81) (x y z : Digit) : Prop where
  ne : p1 ≠ p2
  sees1 : Pattern.Sees hinge p1
  sees2 : Pattern.Sees hinge p2
  xy : x ≠ y
  xz : x ≠ z
  yz : y ≠ z
  c1 : ∀ d : Digit, cp[p1].getLsbD d.val = true ↔ d = x ∨ d = z
  c2 : ∀ d : Digit, cp[p2].getLsbD d.val = true ↔ d = y ∨ d = z
  ch : ∀ d : Digit, cp[hinge].getLsbD d.val = true ↔ d = x ∨ d = y ∨ (withZ = true ∧ d = z)

theorem wing_refuted {cp : Vector DigitSet 81} {withZ : Bool} {hinge p1 p2 : Fin 81} {x y z : Digit}
    (hw : WingOK cp withZ hinge p1 p2 x y z) {t : Grid} (ht : CpOK cp t) {c : Fin 81} (h1 : Pattern.Sees c p1)
    (h2 : Pattern.Sees c p2) (h3 : withZ = true → Pattern.Sees c hinge) : t[c] ≠ z.get := by
  intro he
  have see : ∀ {a b : Fin 81}, Pattern.Sees a b → dig t a ≠ dig t b := by
    intro a b hab e
    refine ht.solved.2 a b hab.1 hab.2 ?_
    rw [dig_spec ht.solved a, dig_spec ht.solved b, e]
  have hz := dig_eq ht.solved he
  have cand : ∀ (a : Fin 81) (u : Digit), cp[a].getLsbD u.val = true → cp[a].getLsbD (dig t a).val = true := by
    intro a u hu
    rcases ht.poss a _ (dig_spec ht.solved a) with h | h
    · rw [h] at hu; simp at hu
    · exact h
  have e1 := (hw.c1 _).mp (cand p1 z ((hw.c1 z).mpr (Or.inr rfl)))
  have e2 := (hw.c2 _).mp (cand p2 z ((hw.c2 z).mpr (Or.inr rfl)))
  have e3 := (hw.ch _).mp (cand hinge x ((hw.ch x).mpr (Or.inl rfl)))
  have n1 := see h1
  have n2 := see h2
  have n3 := see hw.sees1
  have n4 := see hw.sees2
  rw [hz] at n1 n2
  rcases e1 with e1 | e1
  · rcases e2 with e2 | e2
    · rcases e3 with e3 | e3 | ⟨hb, e3⟩
      · exact n3 (e3.trans e1.symm)
      · exact n4 (e3.trans e2.symm)
      · have := see (h3 hb)
        rw [hz] at this
        exact this e3.symm
    · exact n2 e2.symm
  · exact n1 e1.symm

theorem uniqueUnwrap_ok {a : DigitSet} {z : Digit} (h : ∀ i, a.getLsbD i = true ↔ i = z.val) :
    uniqueUnwrap a = .ok z := by
  have hf : Fits 9 a := fun i hi => by rw [h] at hi; omega
  have hel : elems a = {z.val} := by
    ext i
    rw [mem_elems, h, Finset.mem_singleton]
  unfold uniqueUnwrap
  rcases uniqueItem_spec (by omega) (by omega) (by omega) hf with ⟨h0, _⟩ | ⟨i, hi, e⟩ | ⟨h2, _⟩
  · exact absurd ((h z.val).mpr rfl) (by rw [h0]; simp)
  · rw [e, Res.ok_bind]
    have : z = i := Fin.ext ((hi z.val).mp ((h z.val).mpr rfl))
    rw [this]
  · rw [hel] at h2
    simp at h2

/-- The conflicts of a wing. -/
theorem mem_onWing {cp : Vector DigitSet 81} {z : Digit} {cells : Pos.Cells} {e : Candidate} :
    e ∈ ((mems 81 cells).filter (fun c => contains cp[c] (asSet 16 z.val))).map
      (fun c => (⟨c, z⟩ : Candidate)) ↔ (e.digit = z ∧ cells.getLsbD e.cell.val = true) ∧
      cp[e.cell].getLsbD e.digit.val = true := by
  rw [List.mem_map]
  constructor
  · rintro ⟨c, hc, rfl⟩
    rw [List.mem_filter, contains_single, mem_mems] at hc
    exact ⟨⟨rfl, hc.1⟩, hc.2⟩
  · rintro ⟨⟨hd, hc⟩, hb⟩
    refine ⟨e.cell, ?_, by rw [← hd]⟩
    rw [List.mem_filter, contains_single, mem_mems, ← hd]
    exact ⟨hc, hb⟩

/-- Entering the conflicts of a wing. -/
theorem onWing_post {P : Candidate → Prop} {Q : Deduction (List Candidate) → Prop} {cp : Vector DigitSet 81}
    (s : Solver) {hinge p1 p2 : Fin 81} {z : Digit} {cells : Pos.Cells} (hfit : Fits 81 cells)
    (hP : ∀ c : Fin 81, cells.getLsbD c.val = true → cp[c].getLsbD z.val = true → P ⟨c, z⟩)
    (hQ : ∀ l : List Candidate, l ≠ [] → (∀ e, e ∈ l ↔ (e.digit = z ∧ cells.getLsbD e.cell.val = true) ∧
      cp[e.cell].getLsbD e.digit.val = true) →
      Q (.wing hinge cp[hinge] (union (Pos.cellCells p1) (Pos.cellCells p2)) l)) :
    Res.Post (do
      let cells ← items 81 cells
      let conflicts := (cells.filter (fun c => contains cp[c] (asSet 16 z.val))).map (fun c => (⟨c, z⟩ : Candidate))
      .ok (s.enterConflicts conflicts (fun rg =>
        .wing hinge cp[hinge] (union (Pos.cellCells p1) (Pos.cellCells p2)) rg))) (fun r => Ext P Q s r.1) False := by
  rw [items_eq (by omega) (by omega) hfit, Res.ok_bind]
  dsimp only
  have hmem := fun e => mem_onWing (cp := cp) (z := z) (cells := cells) (e := e)
  refine (enterConflicts_ext s (fun l => .wing hinge cp[hinge] (union (Pos.cellCells p1) (Pos.cellCells p2)) l)
    (slice_with fun rg elim => rfl) (fun _ => rfl) ?_ ?_).1
  · intro e he
    rw [hmem] at he
    obtain ⟨⟨hd, h2⟩, hb⟩ := he
    obtain ⟨c, d'⟩ := e
    dsimp only at hd
    subst hd
    exact hP c h2 hb
  · intro hn
    exact hQ _ hn hmem

theorem wing_matches {cp : Vector DigitSet 81} {withZ : Bool} {hinge p1 p2 : Fin 81} {x y z : Digit}
    (hw : WingOK cp withZ hinge p1 p2 x y z) {l : List Candidate} (hl : l ≠ [])
    (hmem : ∀ e : Candidate, e ∈ l ↔ (e.digit = z ∧ Pattern.Sees e.cell p1 ∧ Pattern.Sees e.cell p2 ∧
      (withZ = true → Pattern.Sees e.cell hinge)) ∧ cp[e.cell].getLsbD e.digit.val = true) :
    Pattern.Wing (Cands cp) withZ hinge cp[hinge] (union (Pos.cellCells p1) (Pos.cellCells p2)) l := by
  refine ⟨p1, p2, x, y, z, hw.ne, ?_, hw.sees1, hw.sees2, hw.xy, hw.xz, hw.yz, hw.c1, hw.c2, hw.ch, ?_, hl, ?_⟩
  · intro i
    rw [has_iff, bit_union, Bool.or_eq_true, bit_cellCells, bit_cellCells]
  · intro d
    exact has_iff
  · intro c d
    exact hmem ⟨c, d⟩

/-- The cards of a wing. -/
theorem wingOK_of {cp : Vector DigitSet 81} (hf : ∀ c : Fin 81, Fits 9 cp[c]) (withZ : Bool) {hinge p1 p2 : Fin 81}
    {a : Pos.Cells × Pos.Cells} (ha : WingArea hinge a) (h1 : a.1.getLsbD p1.val = true) (h2 : a.2.getLsbD p2.val = true)
    (l1 : len cp[p1] = 2) (l2 : len cp[p2] = 2) (l3 : len cp[hinge] = if withZ then 3 else 2)
    (i1 : len (inter cp[hinge] cp[p1]) = if withZ then 2 else 1)
    (i2 : len (inter cp[hinge] cp[p2]) = if withZ then 2 else 1)
    (i3 : len (inter cp[p1] cp[p2]) = 1) (u : len (union (union cp[p1] cp[p2]) cp[hinge]) = 3) :
    ∃ x y z, WingOK cp withZ hinge p1 p2 x y z ∧ uniqueUnwrap (inter cp[p1] cp[p2]) = .ok z := by
  rw [len_eq_iff' (by omega)] at l1 l2 l3 i1 i2 i3 u
  rw [elems_inter] at i1 i2 i3
  rw [elems_union, elems_union] at u
  obtain ⟨x, y, z, xy, xz, yz, mA, mB, mAB, m2, m3⟩ := wing_sets l1 l2 i3 u
  have lx : x < 9 := hf p1 x (mem_elems.mp ((mA x).mpr (Or.inl rfl)))
  have lz : z < 9 := hf p1 z (mem_elems.mp ((mA z).mpr (Or.inr rfl)))
  have ly : y < 9 := hf p2 y (mem_elems.mp ((mB y).mpr (Or.inl rfl)))
  refine ⟨⟨x, lx⟩, ⟨y, ly⟩, ⟨z, lz⟩, ⟨?_, ha.2.2.1 p1 h1, ha.2.2.2.1 p2 h2, by simpa using xy, by simpa using xz,
    by simpa using yz, ?_, ?_, ?_⟩, ?_⟩
  · rintro rfl
    exact ha.2.2.2.2 p1 ⟨h1, h2⟩
  · intro d
    rw [← mem_elems, mA]
    simp [Fin.ext_iff]
  · intro d
    rw [← mem_elems, mB]
    simp [Fin.ext_iff]
  · intro d
    rw [← mem_elems]
    cases withZ
    · rw [m2 l3 i1 i2]
      simp [Fin.ext_iff]
    · rw [m3 l3]
      simp [Fin.ext_iff]
  · refine uniqueUnwrap_ok fun i => ?_
    rw [← mem_elems, elems_inter, mAB]

/-- The loops over the pincers. -/
theorem wingPairs_post {cp : Vector DigitSet 81} (hf : ∀ c : Fin 81, Fits 9 cp[c]) (withZ stop : Bool)
    {onWing : Solver → Fin 81 → Fin 81 → Res (Solver × Bool)} {hinge : Fin 81} (J : Solver → Prop)
    {a : Pos.Cells × Pos.Cells} (ha : WingArea hinge a) (l3 : len cp[hinge] = if withZ then 3 else 2)
    (hon : ∀ s p1 p2 x y z, J s → WingOK cp withZ hinge p1 p2 x y z → uniqueUnwrap (inter cp[p1] cp[p2]) = .ok z →
      a.1.getLsbD p1.val = true → a.2.getLsbD p2.val = true → Res.Post (onWing s p1 p2) (fun r => J r.1) False)
    (s : Solver) (hs : J s) :
    Res.Post (wingPairs cp stop (if withZ then 2 else 1) onWing hinge s a) (fun r => J r.1) False := by
  unfold wingPairs bivalueCells
  rw [items_eq (by omega) (by omega) ha.1, items_eq (by omega) (by omega) ha.2.1]
  simp only [Res.ok_bind]
  refine forUntil_post J _ s hs ?_
  intro s' p1 h1 hs'
  refine forUntil_post J _ s' hs' ?_
  intro s'' p2 h2 hs''
  split
  · exact hs''
  · rename_i hne
    rw [not_or, ne_eq, ne_eq, not_not, not_not] at hne
    rw [List.mem_filter, mem_mems, Bool.and_eq_true, beq_iff_eq, beq_iff_eq] at h1 h2
    obtain ⟨x, y, z, hw, hu⟩ := wingOK_of hf withZ ha h1.1 h2.1 h1.2.1 h2.2.1 l3 h1.2.2 h2.2.2 hne.1 hne.2
    refine Res.Post.bind (hon s'' p1 p2 x y z hs'' hw hu h1.1 h2.1) ?_
    rintro ⟨s3, found⟩ h3
    exact h3

theorem xyWing_search {s : Solver} (hf : ∀ c : Fin 81, Fits 9 s.cp[c]) (hrem : Removed s) (stop : Bool) :
    Res.Post (forUntil (fun s' hinge =>
      if len s.cp[hinge] ≠ 2 then .ok (s', false)
      else
        let areas := wingAreas hinge
        forUntil (wingPairs s.cp stop 1 (onXyWing s.cp hinge) hinge) [areas.1, areas.2.1, areas.2.2] s')
      (List.finRange 81) s) (fun r => Ext (NewElim s) (DedOf .xyWing s.cp s.hp) s r.1) False := by
  refine forUntil_post (Ext (NewElim s) (DedOf .xyWing s.cp s.hp) s) _ s (Ext.refl s) ?_
  intro s' hinge _ hs'
  split
  · exact hs'
  · rename_i hlen
    rw [ne_eq, not_not] at hlen
    refine forUntil_post (Ext (NewElim s) (DedOf .xyWing s.cp s.hp) s) _ s' hs' ?_
    intro s'' a ha hs''
    refine wingPairs_post hf false stop (Ext (NewElim s) (DedOf .xyWing s.cp s.hp) s) (wingArea_spec hinge a ha) hlen ?_
      s'' hs''
    intro s3 p1 p2 x y z hs3 hw hu _ _
    unfold onXyWing
    rw [hu, Res.ok_bind]
    refine (onWing_post s3 (fits_neighbors p1).inter_left ?_ ?_).mono (fun r hr => hs3.trans hr) id
    · intro c hc hb
      rw [bit_inter, Bool.and_eq_true, bit_neighbors, bit_neighbors] at hc
      exact ⟨hrem.notMem hb, fun t ht _ => wing_refuted hw ht hc.1 hc.2 (by simp),
        Or.inl (ne_zero_iff.mpr ⟨_, hb⟩)⟩
    · intro l hl hmem
      refine ⟨?_, rfl, ?_⟩
      · unfold Deduction.strategy
        dsimp only
        rw [hlen]
        rfl
      · intro _
        refine wing_matches hw hl fun e => ?_
        rw [hmem, bit_inter, Bool.and_eq_true, bit_neighbors, bit_neighbors]
        simp

theorem xyzWing_search {s : Solver} (hf : ∀ c : Fin 81, Fits 9 s.cp[c]) (hrem : Removed s) (stop : Bool) :
    Res.Post (forUntil (fun s' hinge =>
      if len s.cp[hinge] ≠ 3 then .ok (s', false)
      else
        let areas := wingAreas hinge
        forUntil (wingPairs s.cp stop 2 (onXyzWing s.cp hinge) hinge) [areas.1, areas.2.1] s')
      (List.finRange 81) s) (fun r => Ext (NewElim s) (DedOf .xyzWing s.cp s.hp) s r.1) False := by
  refine forUntil_post (Ext (NewElim s) (DedOf .xyzWing s.cp s.hp) s) _ s (Ext.refl s) ?_
  intro s' hinge _ hs'
  split
  · exact hs'
  · rename_i hlen
    rw [ne_eq, not_not] at hlen
    refine forUntil_post (Ext (NewElim s) (DedOf .xyzWing s.cp s.hp) s) _ s' hs' ?_
    intro s'' a ha hs''
    refine wingPairs_post hf true stop (Ext (NewElim s) (DedOf .xyzWing s.cp s.hp) s)
      (wingArea_spec hinge a (by simp only [List.mem_cons, List.not_mem_nil, or_false] at ha ⊢; tauto)) hlen ?_ s'' hs''
    intro s3 p1 p2 x y z hs3 hw hu g1 g2
    unfold onXyzWing
    rw [hu, Res.ok_bind]
    dsimp only
    rw [xyz_common hinge p1 p2 a ha g1 g2, Res.assert_true, Res.ok_bind]
    refine (onWing_post s3 (fits_neighbors hinge).inter_left.inter_left ?_ ?_).mono (fun r hr => hs3.trans hr) id
    · intro c hc hb
      rw [bit_inter, Bool.and_eq_true, bit_inter, Bool.and_eq_true, bit_neighbors, bit_neighbors, bit_neighbors] at hc
      exact ⟨hrem.notMem hb, fun t ht _ => wing_refuted hw ht hc.1.2 hc.2 (fun _ => hc.1.1),
        Or.inl (ne_zero_iff.mpr ⟨_, hb⟩)⟩
    · intro l hl hmem
      refine ⟨?_, rfl, ?_⟩
      · unfold Deduction.strategy
        dsimp only
        rw [hlen]
        rfl
      · intro _
        refine wing_matches hw hl fun e => ?_
        rw [hmem, bit_inter, Bool.and_eq_true, bit_inter, Bool.and_eq_true, bit_neighbors, bit_neighbors, bit_neighbors]
        tauto

/-! ## Mutant fish -/

theorem card_cellsAt {h : Fin 27} {ps : PosSet} (hf : Fits 9 ps) : ∃ m, Pos.houseCellsAt h ps = .ok m ∧
    (elems m).card = (elems ps).card := by
  obtain ⟨m, e, hm⟩ := Props.C37_cells_at h ps (fits_iff.mp hf)
  refine ⟨m, e, ?_⟩
  rw [← card_fset hf, ← Finset.card_image_of_injective (f := fun p : Fin 9 => (Pos.houseCellAt h p).val) _
    (fun i j e => hca_inj (Fin.ext e))]
  congr 1
  ext i
  rw [hm, Finset.mem_image]
  constructor
  · rintro ⟨p, hp, rfl⟩
    exact ⟨p, mem_fset.mpr (mem_elems.mp hp), rfl⟩
  · rintro ⟨p, hp, rfl⟩
    exact ⟨p, mem_elems.mpr (mem_fset.mp hp), rfl⟩

theorem baseStep_post {hp : HousePoss} (hf : ∀ (h : Fin 27) (d : Digit), Fits 9 hp[h][d]) (digit : Digit) (size : UInt8)
    (a : HouseSet × Pos.Cells) (house : Fin 27) (ha : 2 * (elems a.1).card ≤ (elems a.2).card) :
    Res.Post (baseStep hp digit size a house) (fun r => ∀ a', r = some a' → 2 * (elems a'.1).card ≤ (elems a'.2).card)
      False := by
  unfold baseStep
  dsimp only
  obtain ⟨m, e, hm⟩ := card_cellsAt (h := house) (hf house digit)
  rw [e, Res.ok_bind]
  split
  · intro a' h'; cases h'
  · rename_i h1
    split
    · intro a' h'; cases h'
    · rename_i h2
      rw [not_or] at h1 h2
      intro a' h'
      cases h'
      dsimp only
      have hn : ¬ (len hp[house][digit]).toNat < 2 := fun h => h2.1 (UInt8.lt_iff_toNat_lt.mpr h)
      rw [len_eq_card (by omega)] at hn
      have hdisj : Disjoint (elems a.2) (elems m) := by
        rw [Finset.disjoint_left]
        intro i h3 h4
        exact h1.2 (overlaps_iff.mpr ⟨i, mem_elems.mp h4, mem_elems.mp h3⟩)
      rw [elems_union, elems_union, Finset.card_union_of_disjoint hdisj]
      have := Finset.card_union_le (elems a.1) (elems (asSet 32 house.val))
      have h1 : (elems (asSet 32 house.val)).card ≤ 1 := by
        rw [Finset.card_le_one]
        intro x hx y hy
        rw [mem_elems, bit_asSet (by omega)] at hx hy
        omega
      omega

/-- The search for mutant fish finds nothing. -/
theorem mutantFish_search {s : Solver} (hf : ∀ (h : Fin 27) (d : Digit), Fits 9 s.hp[h][d]) {size : UInt8}
    (hsize : size ≠ 0) (stop : Bool) :
    Res.Post (forUntil (fun s' (digit : Digit) => do
      let houses ← items 27 (ALL 32 27)
      walk (baseVisit s.cp digit size stop) (baseStep s.hp digit size) houses (NONE 32, NONE 128) s')
      (List.finRange 9) s) (fun r => r.1 = s) False := by
  refine forUntil_post (· = s) _ s rfl ?_
  intro s' digit _ hs'
  rw [items_eq (by omega) (by omega) (fits_all (by omega) (by omega)), Res.ok_bind]
  refine walk_post (fun r => r = s) (fun a : HouseSet × Pos.Cells => 2 * (elems a.1).card ≤ (elems a.2).card)
    (mems 27 (ALL 32 27)) ?_ (fun a x _ ha => baseStep_post hf digit size a x ha) (NONE 32, NONE 128) s' ?_ hs'
  rotate_left
  · show 2 * (elems (NONE 32)).card ≤ (elems (NONE 128)).card
    rw [elems_NONE, elems_NONE]
    exact Nat.le_refl 0
  intro a s'' ha hs''
  unfold baseVisit
  split
  · rename_i h1
    split
    · exact hs''
    · rename_i h2
      rw [ne_eq, not_not] at h2
      rw [len_eq_iff' (by omega)] at h1 h2
      have : size.toNat ≠ 0 := fun h => hsize (UInt8.toNat_inj.mp h)
      omega
  · exact hs''

end Verif.Strat
