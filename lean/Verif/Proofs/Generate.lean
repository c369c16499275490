import Verif.Model.Generate
import Verif.Spec.Symmetry
import Verif.Props.Solver

namespace Verif

open Sudoku

/-! ## Removing clues -/

theorem SubClues.refl (g : Grid) : SubClues g g := fun _ => .inr rfl

theorem SubClues.trans {a b c : Grid} (h1 : SubClues a b) (h2 : SubClues b c) : SubClues a c := by
  intro x
  rcases h1 x with h | h
  · exact .inl h
  · rw [h]; exact h2 x

theorem SubClues.wellFormed {a b : Grid} (h : SubClues a b) (hb : WellFormed b) : WellFormed a := by
  intro x
  rcases h x with h | h
  · rw [h]; decide
  · rw [h]; exact hb x

theorem SubClues.isSolution {a b t : Grid} (h : SubClues a b) (ht : IsSolution b t) : IsSolution a t := by
  refine ⟨ht.1, fun c hc => ?_⟩
  rcases h c with h | h
  · exact absurd h hc
  · rw [h] at hc ⊢; exact ht.2 c hc

theorem without_get (g : Grid) (cells : List (Fin 81)) (x : Fin 81) :
    (without g cells)[x] = if x ∈ cells then 0 else g[x] := by
  unfold without
  simp

theorem without_subClues (g : Grid) (cells : List (Fin 81)) : SubClues (without g cells) g := by
  intro x
  rw [without_get]
  split
  · exact .inl rfl
  · exact .inr rfl

theorem without_mono {a b : Grid} (h : SubClues a b) (cells : List (Fin 81)) :
    SubClues (without a cells) (without b cells) := by
  intro x
  rw [without_get, without_get]
  split
  · exact .inl rfl
  · exact h x

namespace Sudoku

/-! ## The symmetry classes -/

/-- The cells corresponding to a cell, as cells. -/
def classOf (s : Symmetry) (x : Fin 81) : List (Fin 81) :=
  (correspondingCells s x.val).filterMap (fun n => if h : n < 81 then some ⟨n, h⟩ else none)

/-- All symmetries. -/
def allSymmetries : List Symmetry :=
  [.verticalMirror, .horizontalMirror, .verticalAndHorizontalMirror, .diagonalMirror, .antidiagonalMirror,
   .bidiagonalMirror, .quarterRotation, .halfRotation, .dihedral, .none]

theorem mem_allSymmetries (s : Symmetry) : s ∈ allSymmetries := by cases s <;> decide

/-- The facts about classes below, as a computation on numbers. -/
def classCheck (s : Symmetry) (x : Nat) : Bool :=
  (correspondingCells s x).all (fun y => Nat.blt y 81 &&
    (correspondingCells s x).all (fun z => (correspondingCells s y).any (Nat.beq z)) &&
    (correspondingCells s y).all (fun z => (correspondingCells s x).any (Nat.beq z)))

theorem classCheck_true : allSymmetries.all (fun s => (List.range 81).all (classCheck s)) = true := by
  decide +kernel

theorem mem_classOf (s : Symmetry) (x y : Fin 81) : y ∈ classOf s x ↔ y.val ∈ correspondingCells s x.val := by
  unfold classOf
  simp only [List.mem_filterMap]
  constructor
  · rintro ⟨n, hn, h⟩
    split at h
    · cases h; exact hn
    · cases h
  · intro h
    exact ⟨y.val, h, by simp⟩

theorem class_facts : ∀ s ∈ allSymmetries, ∀ x : Fin 81,
    correspondingCells s x.val = (classOf s x).map Fin.val ∧ (correspondingCells s x.val).head? = some x.val ∧
      ∀ y ∈ classOf s x, (∀ z ∈ classOf s x, z ∈ classOf s y) ∧ (∀ z ∈ classOf s y, z ∈ classOf s x) := by
  intro s hs x
  have h := List.all_eq_true.1 classCheck_true s hs
  have h := List.all_eq_true.1 h x.val (List.mem_range.2 x.isLt)
  unfold classCheck at h
  simp only [List.all_eq_true, Bool.and_eq_true, List.any_eq_true, Nat.blt_eq, Nat.beq_eq_true_eq] at h
  refine ⟨?_, by cases s <;> rfl, ?_⟩
  · have key : ∀ l : List Nat, (∀ n ∈ l, n < 81) →
        l = (l.filterMap (fun n => if h : n < 81 then some (⟨n, h⟩ : Fin 81) else none)).map Fin.val := by
      intro l
      induction l with
      | nil => intro _; rfl
      | cons n l ih =>
        intro hl
        have hn := hl n (by simp)
        rw [List.filterMap_cons, dif_pos hn]
        simp only [List.map_cons]
        rw [← ih (fun m hm => hl m (List.mem_cons_of_mem _ hm))]
    exact key _ (fun n hn => (h n hn).1.1)
  · intro y hy
    rw [mem_classOf] at hy
    obtain ⟨⟨-, h1⟩, h2⟩ := h y.val hy
    constructor
    · intro z hz
      rw [mem_classOf] at hz ⊢
      obtain ⟨w, hw, e⟩ := h1 _ hz
      rw [Nat.eq_of_beq_eq_true e]; exact hw
    · intro z hz
      rw [mem_classOf] at hz ⊢
      obtain ⟨w, hw, e⟩ := h2 _ hz
      rw [Nat.eq_of_beq_eq_true e]; exact hw

theorem cells_eq (s : Symmetry) (x : Fin 81) : correspondingCells s x.val = (classOf s x).map Fin.val :=
  (class_facts s (mem_allSymmetries s) x).1

theorem class_head (s : Symmetry) (x : Fin 81) : ∃ tl, classOf s x = x :: tl := by
  have h := (class_facts s (mem_allSymmetries s) x).2.1
  rw [cells_eq] at h
  cases hc : classOf s x with
  | nil => rw [hc] at h; cases h
  | cons y tl =>
    rw [hc] at h
    simp only [List.map_cons, List.head?_cons, Option.some.injEq] at h
    exact ⟨tl, by rw [Fin.ext h]⟩

theorem class_self (s : Symmetry) (x : Fin 81) : x ∈ classOf s x := by
  obtain ⟨tl, h⟩ := class_head s x
  rw [h]; simp

theorem class_eq (s : Symmetry) {x y : Fin 81} (h : y ∈ classOf s x) (z : Fin 81) :
    z ∈ classOf s x ↔ z ∈ classOf s y :=
  ⟨((class_facts s (mem_allSymmetries s) x).2.2 y h).1 z, ((class_facts s (mem_allSymmetries s) x).2.2 y h).2 z⟩

theorem class_symm (s : Symmetry) {x y : Fin 81} (h : y ∈ classOf s x) : x ∈ classOf s y :=
  (class_eq s h x).1 (class_self s x)

theorem without_class_eq (s : Symmetry) (g : Grid) {x y : Fin 81} (h : y ∈ classOf s x) :
    without g (classOf s x) = without g (classOf s y) := by
  apply Vector.ext
  intro i hi
  have e1 := without_get g (classOf s x) ⟨i, hi⟩
  have e2 := without_get g (classOf s y) ⟨i, hi⟩
  have : (without g (classOf s x))[(⟨i, hi⟩ : Fin 81)] = (without g (classOf s y))[(⟨i, hi⟩ : Fin 81)] := by
    rw [e1, e2]
    by_cases hm : (⟨i, hi⟩ : Fin 81) ∈ classOf s x
    · rw [if_pos hm, if_pos ((class_eq s h _).1 hm)]
    · rw [if_neg hm, if_neg (fun h' => hm ((class_eq s h _).2 h'))]
  exact this

theorem clearCells_spec : ∀ (cells : List (Fin 81)) (visited : Vector Bool 81) (g : Grid),
    ∃ visited' g', clearCells (cells.map Fin.val) visited g = .ok (visited', g') ∧
      (∀ x : Fin 81, visited'[x] = (decide (x ∈ cells) || visited[x])) ∧
      (∀ x : Fin 81, g'[x] = if x ∈ cells then 0 else g[x]) := by
  intro cells
  induction cells with
  | nil => intro v g; exact ⟨v, g, rfl, fun x => by simp, fun x => by simp⟩
  | cons c cells ih =>
    intro v g
    obtain ⟨v', g', h1, h2, h3⟩ := ih (v.set c.val true) (g.set c.val 0)
    refine ⟨v', g', ?_, ?_, ?_⟩
    · simp only [List.map_cons]
      conv_lhs => unfold clearCells
      rw [dif_pos c.isLt]; exact h1
    · intro x
      rw [h2]
      have : (v.set c.val true)[x] = if c = x then true else v[x] := by
        simp only [Fin.getElem_fin, Vector.getElem_set, Fin.ext_iff]
      rw [this]
      by_cases hx : c = x
      · subst hx; simp
      · rw [if_neg hx]
        have : x ≠ c := fun h => hx h.symm
        simp [this]
    · intro x
      rw [h3]
      have : (g.set c.val 0)[x] = if c = x then 0 else g[x] := by
        simp only [Fin.getElem_fin, Vector.getElem_set, Fin.ext_iff]
      rw [this]
      by_cases hx : c = x
      · subst hx; simp
      · rw [if_neg hx]
        have : x ≠ c := fun h => hx h.symm
        simp [this]

theorem grid_ext {g h : Grid} (e : ∀ x : Fin 81, g[x] = h[x]) : g = h := by
  apply Vector.ext
  intro i hi
  exact e ⟨i, hi⟩

/-! ## The loop -/

/-- The state of the loop: `g0` is the input. -/
structure GenInv (s : Symmetry) (g0 : Grid) (order : List (Fin 81)) (visited : Vector Bool 81) (g : Grid) :
    Prop where
  sub : SubClues g g0
  classes : ∀ x : Fin 81, ∀ y ∈ classOf s x, visited[x] = visited[y]
  todo : ∀ x : Fin 81, x ∈ order ∨ visited[x] = true
  untouched : ∀ x : Fin 81, visited[x] = false → g[x] = g0[x]
  whole : ∀ x : Fin 81, (∀ y ∈ classOf s x, g[y] = 0) ∨ (∀ y ∈ classOf s x, g[y] = g0[y])
  unique : UniquelySolvable g ∨ g = g0
  minimal : (∃ t, IsSolution g0 t) → ∀ x : Fin 81, visited[x] = true → (∀ y ∈ classOf s x, g[y] = 0) ∨
    ¬ UniquelySolvable (without g (classOf s x))

theorem not_unique_of_sub {a b : Grid} (h : SubClues a b) (hb : ¬ UniquelySolvable b)
    (hs : ∃ t, IsSolution b t) : ¬ UniquelySolvable a := by
  rintro ⟨t, ht, hu⟩
  obtain ⟨t1, h1⟩ := hs
  apply hb
  have e := hu t1 (h.isSolution h1)
  exact ⟨t1, h1, fun t' h' => by rw [hu t' (h.isSolution h'), e]⟩

theorem genLoop_step (fuel : Nat) (s : Symmetry) (c : Fin 81) (order : List (Fin 81)) (v : Vector Bool 81)
    (g : Grid) :
    generateLoop fuel s ((c :: order).map Fin.val) v g =
        if v[c] = true then generateLoop fuel s (order.map Fin.val) v g
        else clearCells ((classOf s c).map Fin.val) v g >>= fun p =>
          isUniquelySolvable fuel p.2 >>= fun b =>
            if b = true then generateLoop fuel s (order.map Fin.val) p.1 p.2
            else generateLoop fuel s (order.map Fin.val) p.1 g := by
  obtain ⟨tl, htl⟩ := class_head s c
  have hcells := cells_eq s c
  simp only [List.map_cons]
  conv_lhs => unfold generateLoop
  rw [hcells, htl]
  simp only [List.map_cons]
  rw [dif_pos c.isLt]
  rfl

theorem genLoop_spec (fuel : Nat) (hf : 800 ≤ fuel) (s : Symmetry) (g0 : Grid) (hw : WellFormed g0) :
    ∀ (order : List (Fin 81)) (visited : Vector Bool 81) (g : Grid), GenInv s g0 order visited g →
      ∃ g', generateLoop fuel s (order.map Fin.val) visited g = .ok g' ∧
        ∃ visited', GenInv s g0 [] visited' g' := by
  intro order
  induction order with
  | nil => intro v g inv; exact ⟨g, rfl, v, inv⟩
  | cons c order ih =>
    intro v g inv
    rw [genLoop_step]
    by_cases hv : v[c] = true
    · rw [if_pos hv]
      refine ih v g { inv with todo := ?_ }
      intro x
      rcases inv.todo x with h | h
      · rcases List.mem_cons.1 h with rfl | h
        · exact .inr hv
        · exact .inl h
      · exact .inr h
    · rw [if_neg hv]
      obtain ⟨v', tmp, h1, h2, h3⟩ := clearCells_spec (classOf s c) v g
      have htmp : tmp = without g (classOf s c) := grid_ext (fun x => by rw [h3, without_get])
      rw [h1]
      simp only [Res.ok_bind]
      have hwt : WellFormed tmp := by
        rw [htmp]; exact ((without_subClues _ _).trans inv.sub).wellFormed hw
      obtain ⟨b, hb1, hb2⟩ := Props.C05_is_uniquely_solvable tmp hwt fuel hf
      rw [hb1]
      simp only [Res.ok_bind]
      have hcl : ∀ x : Fin 81, ∀ y ∈ classOf s x, v'[x] = v'[y] := by
        intro x y hy
        rw [h2, h2, inv.classes x y hy]
        congr 1
        apply decide_eq_decide.2
        constructor
        · intro hx
          exact (class_eq s hx y).2 hy
        · intro hx
          exact (class_eq s hx x).2 (class_symm s hy)
      have htodo : ∀ x : Fin 81, x ∈ order ∨ v'[x] = true := by
        intro x
        rcases inv.todo x with h | h
        · rcases List.mem_cons.1 h with rfl | h
          · right; rw [h2]; simp [class_self]
          · exact .inl h
        · right; rw [h2, h]; simp
      by_cases hb : b = true
      · rw [if_pos hb]
        have hu := hb2.1 hb
        refine ih v' tmp ?_
        have hsub : SubClues tmp g := by rw [htmp]; exact without_subClues _ _
        refine ⟨hsub.trans inv.sub, hcl, htodo, ?_, ?_, .inl hu, ?_⟩
        · intro x hx
          rw [h2] at hx
          simp only [Bool.or_eq_false_iff, decide_eq_false_iff_not] at hx
          rw [h3, if_neg hx.1]; exact inv.untouched x hx.2
        · intro x
          by_cases hx : x ∈ classOf s c
          · left; intro y hy; rw [h3, if_pos ((class_eq s hx y).2 hy)]
          · have : ∀ y ∈ classOf s x, tmp[y] = g[y] := by
              intro y hy
              rw [h3, if_neg]
              intro hyc
              exact hx ((class_eq s hyc x).2 (class_symm s hy))
            rcases inv.whole x with h | h
            · left; intro y hy; rw [this y hy]; exact h y hy
            · right; intro y hy; rw [this y hy]; exact h y hy
        · intro hsol x hx
          have hsolg : ∃ t, IsSolution g t := hsol.imp fun t ht => inv.sub.isSolution ht
          by_cases hxc : x ∈ classOf s c
          · left; intro y hy; rw [h3, if_pos ((class_eq s hxc y).2 hy)]
          · rw [h2] at hx
            simp only [hxc, decide_false, Bool.false_or] at hx
            rcases inv.minimal hsol x hx with h | h
            · left
              intro y hy
              rw [h3]; split
              · rfl
              · exact h y hy
            · right
              refine not_unique_of_sub (without_mono hsub _) h ?_
              exact hsolg.imp fun t ht => (without_subClues _ _).isSolution ht
      · rw [if_neg hb]
        have hu : ¬ UniquelySolvable tmp := fun h => hb (hb2.2 h)
        refine ih v' g ⟨inv.sub, hcl, htodo, ?_, inv.whole, inv.unique, ?_⟩
        · intro x hx
          rw [h2] at hx
          simp only [Bool.or_eq_false_iff] at hx
          exact inv.untouched x hx.2
        · intro hsol x hx
          by_cases hxc : x ∈ classOf s c
          · right
            rw [← without_class_eq s g hxc, ← htmp]; exact hu
          · rw [h2] at hx
            simp only [hxc, decide_false, Bool.false_or] at hx
            exact inv.minimal hsol x hx

theorem genLoop_unique (fuel : Nat) (hf : 800 ≤ fuel) (s : Symmetry) :
    ∀ (order : List (Fin 81)) (visited : Vector Bool 81) (g : Grid), WellFormed g → UniquelySolvable g →
      ∃ g', generateLoop fuel s (order.map Fin.val) visited g = .ok g' ∧ UniquelySolvable g' := by
  intro order
  induction order with
  | nil => intro v g _ hu; exact ⟨g, rfl, hu⟩
  | cons c order ih =>
    intro v g hw hu
    rw [genLoop_step]
    by_cases hv : v[c] = true
    · rw [if_pos hv]; exact ih v g hw hu
    · rw [if_neg hv]
      obtain ⟨v', tmp, h1, h2, h3⟩ := clearCells_spec (classOf s c) v g
      rw [h1]
      simp only [Res.ok_bind]
      have hwt : WellFormed tmp := by
        intro x
        rw [h3]; split
        · decide
        · exact hw x
      obtain ⟨b, hb1, hb2⟩ := Props.C05_is_uniquely_solvable tmp hwt fuel hf
      rw [hb1]
      simp only [Res.ok_bind]
      by_cases hb : b = true
      · rw [if_pos hb]; exact ih v' tmp hwt (hb2.1 hb)
      · rw [if_neg hb]; exact ih v' g hw hu

theorem order_cells {order : List Nat} (h : order.Perm (List.range 81)) :
    ∃ o : List (Fin 81), order = o.map Fin.val ∧ ∀ x, x ∈ o := by
  have key : ∀ l : List Nat, (∀ n ∈ l, n < 81) → ∃ o : List (Fin 81), l = o.map Fin.val := by
    intro l
    induction l with
    | nil => intro _; exact ⟨[], rfl⟩
    | cons n l ih =>
      intro hl
      obtain ⟨o, ho⟩ := ih (fun m hm => hl m (List.mem_cons_of_mem _ hm))
      exact ⟨⟨n, hl n (by simp)⟩ :: o, by simp [← ho]⟩
  obtain ⟨o, ho⟩ := key order (fun n hn => List.mem_range.1 (h.mem_iff.1 hn))
  refine ⟨o, ho, fun x => ?_⟩
  have : x.val ∈ order := h.mem_iff.2 (List.mem_range.2 x.isLt)
  rw [ho, List.mem_map] at this
  obtain ⟨y, hy, e⟩ := this
  rwa [← Fin.ext e]

theorem generate_spec (fuel : Nat) (hf : 800 ≤ fuel) (s : Symmetry) (g0 : Grid) (hw : WellFormed g0)
    {order : List Nat} (ho : order.Perm (List.range 81)) :
    ∃ g', generateWithSymmetryFrom fuel g0 s order = .ok g' ∧ ∃ visited, GenInv s g0 [] visited g' := by
  obtain ⟨o, rfl, hall⟩ := order_cells ho
  apply genLoop_spec fuel hf s g0 hw
  refine ⟨SubClues.refl _, ?_, fun x => .inl (hall x), fun _ _ => rfl, fun _ => .inr (fun _ _ => rfl), .inr rfl, ?_⟩
  · intro x y _; simp
  · intro _ x hx; simp at hx

end Sudoku
end Verif
