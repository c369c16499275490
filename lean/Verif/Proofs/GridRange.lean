import Verif.Spec.History
import Verif.Proofs.GenInv

/-!
# The grid of the strategy solver holds digits, and cells are never emptied, in every state
-/
namespace Verif.Strat

open Verif

/-- If the result is `ok`, it satisfies the condition. -/
def OkP {α : Type} (x : Res α) (P : α → Prop) : Prop := ∀ a, x = .ok a → P a

namespace OkP

variable {α β : Type} {P : α → Prop} {Q : β → Prop}

theorem ok {a : α} (h : P a) : OkP (.ok a) P := by
  intro b hb
  cases hb
  exact h

theorem panic : OkP (.panic : Res α) P := fun _ h => by cases h

theorem timeout : OkP (.timeout : Res α) P := fun _ h => by cases h

theorem bind {x : Res α} {f : α → Res β} (hx : OkP x P) (hf : ∀ a, P a → OkP (f a) Q) : OkP (x >>= f) Q := by
  cases x with
  | ok a => exact hf a (hx a rfl)
  | err => intro _ h; cases h
  | panic => intro _ h; cases h
  | timeout => intro _ h; cases h

theorem bind' {x : Res α} {f : α → Res β} (hf : ∀ a, OkP (f a) Q) : OkP (x >>= f) Q :=
  bind (P := fun _ => True) (fun _ _ => trivial) fun a _ => hf a

end OkP

/-- The cells hold digits, and those in `F` are filled, at the latest by `update_grid`. -/
def Held (F : Fin 81 → Prop) (s : Solver) : Prop :=
  (∀ c : Fin 81, s.grid[c] = 0 ∨ ∃ d : Digit, s.grid[c] = d.get) ∧
    ∀ c : Fin 81, F c → s.grid[c] ≠ 0 ∨ ∃ e ∈ s.deduced, e.cell = c

variable {F : Fin 81 → Prop} {s : Solver} {β : Type}

private theorem set_entry (g : Grid) (e : Candidate) (c : Fin 81) :
    (g.set e.cell e.digit.get)[c] = if e.cell = c then e.digit.get else g[c] := by
  simp only [Fin.getElem_fin, Vector.getElem_set, Fin.val_inj]

theorem Held.set (h : Held F s) (e : Candidate) (l : List Candidate) (hl : ∀ x ∈ s.deduced, x ∈ l) :
    Held F { s with grid := s.grid.set e.cell e.digit.get, deduced := l } := by
  refine ⟨fun c => ?_, fun c hc => ?_⟩
  · dsimp only
    rw [set_entry]
    split
    · exact Or.inr ⟨_, rfl⟩
    · exact h.1 c
  · dsimp only
    rw [set_entry]
    split
    · exact Or.inl (Digit.get_ne_zero _)
    · exact (h.2 c hc).imp id fun ⟨x, hx, hxc⟩ => ⟨x, hl x hx, hxc⟩

theorem Held.more (h : Held F s) (l : List Candidate) (hl : ∀ x ∈ s.deduced, x ∈ l) : Held F { s with deduced := l } :=
  ⟨h.1, fun c hc => (h.2 c hc).imp id fun ⟨x, hx, hxc⟩ => ⟨x, hl x hx, hxc⟩⟩

theorem Held.updateGrid (h : Held F s) : Held F s.updateGrid ∧ ∀ c : Fin 81, F c → s.updateGrid.grid[c] ≠ 0 := by
  have key : ∀ (l : List Candidate) (g : Grid), (∀ c : Fin 81, g[c] = 0 ∨ ∃ d : Digit, g[c] = d.get) →
      (∀ c : Fin 81, (l.foldl (fun (g : Grid) e => g.set e.cell e.digit.get) g)[c] = 0 ∨
        ∃ d : Digit, (l.foldl (fun (g : Grid) e => g.set e.cell e.digit.get) g)[c] = d.get) ∧
      ∀ c : Fin 81, (g[c] ≠ 0 ∨ ∃ e ∈ l, e.cell = c) →
        (l.foldl (fun (g : Grid) e => g.set e.cell e.digit.get) g)[c] ≠ 0 := by
    intro l
    induction l with
    | nil =>
      refine fun g h => ⟨h, fun c hc => ?_⟩
      rcases hc with hc | ⟨e, he, -⟩
      · exact hc
      · cases he
    | cons e l ih =>
      intro g h
      have h' : ∀ c : Fin 81, (g.set e.cell e.digit.get)[c] = 0 ∨ ∃ d : Digit, (g.set e.cell e.digit.get)[c] = d.get := by
        intro c
        rw [set_entry]
        split
        · exact Or.inr ⟨_, rfl⟩
        · exact h c
      refine ⟨(ih _ h').1, fun c hc => (ih _ h').2 c ?_⟩
      rw [set_entry]
      split
      · exact Or.inl (Digit.get_ne_zero _)
      · rename_i hne
        rcases hc with hc | ⟨x, hx, hxc⟩
        · exact Or.inl hc
        · rcases List.mem_cons.mp hx with rfl | hx
          · exact absurd hxc hne
          · exact Or.inr ⟨x, hx, hxc⟩
  have k := key s.deduced s.grid h.1
  exact ⟨⟨k.1, fun c hc => Or.inl (k.2 c (h.2 c hc))⟩, fun c hc => k.2 c (h.2 c hc)⟩

/-- The states that a function may return. -/
abbrev Keeps (F : Fin 81 → Prop) (x : Res (Solver × β)) : Prop := OkP x fun r => Held F r.1

theorem push_held (h : Held F s) (e : Candidate) (x : RangeDeduction) : Keeps F (s.pushNewCandidate e x) := by
  unfold Solver.pushNewCandidate
  split
  all_goals first
    | exact OkP.panic
    | (dsimp only; split
       · exact OkP.ok h
       · split
         · exact OkP.ok (h.set e _ fun x hx => List.mem_append_left _ hx)
         · exact OkP.ok h)

theorem remove_held (h : Held F s) (c : Fin 81) (m : DigitSet) (b : Bool) : Keeps F (s.removeImpossibilities c m b) := by
  unfold Solver.removeImpossibilities
  dsimp only
  split
  · refine OkP.bind' fun a => ?_
    split
    · exact OkP.ok h
    · exact OkP.ok h
    · exact push_held (by exact h) _ _
  · exact OkP.ok h

theorem tryEach_held {α : Type} {f : Solver → α → Res (Solver × Bool)} (hf : ∀ s x, Held F s → Keeps F (f s x)) (b : Bool) :
    ∀ (l : List α) (s : Solver), Held F s → Keeps F (tryEach f b l s) := by
  intro l
  induction l with
  | nil => exact fun s h => OkP.ok h
  | cons x l ih =>
    intro s h
    refine OkP.bind (hf s x h) fun ⟨s, b⟩ hr => ?_
    dsimp only
    split
    · exact OkP.ok hr
    · exact ih _ hr

theorem forUntil_held {α : Type} {f : Solver → α → Res (Solver × Bool)} (hf : ∀ s x, Held F s → Keeps F (f s x)) :
    ∀ (l : List α) (s : Solver), Held F s → Keeps F (forUntil f l s) := by
  intro l
  induction l with
  | nil => exact fun s h => OkP.ok h
  | cons x l ih =>
    intro s h
    refine OkP.bind (hf s x h) fun ⟨s, b⟩ hr => ?_
    dsimp only
    split
    · exact OkP.ok hr
    · exact ih _ hr

theorem andThen_held {x : Res (Solver × Bool)} {f : Solver → Res (Solver × Bool)} (hx : Keeps F x)
    (hf : ∀ s, Held F s → Keeps F (f s)) : Keeps F (andThen x f) := by
  refine OkP.bind hx fun ⟨s, b⟩ hr => ?_
  dsimp only
  split
  · exact hf _ hr
  · exact OkP.ok hr

theorem advance_held (h : Held F s) : OkP s.advance (Held F) := by
  unfold Solver.advance
  exact OkP.bind' fun _ => OkP.bind' fun _ => OkP.ok h

theorem insertCp_held (h : Held F s) (e : Candidate) : OkP (s.insertCandidateCpZs e) (Held F) := by
  unfold Solver.insertCandidateCpZs
  exact OkP.bind' fun _ => OkP.ok h

theorem neighbors_held (h : Held F s) (m : DigitSet) (b : Bool) (l : List (Fin 81)) :
    Keeps F (s.removeFromNeighbors m b l) := by
  refine tryEach_held (fun s x h => ?_) _ _ _ h
  split
  · exact remove_held h _ _ _
  · exact OkP.ok h

theorem singly_held (b : Bool) : ∀ (fuel : Nat) (s : Solver), Held F s → Keeps F (Solver.insertSingly b fuel s) := by
  intro fuel
  induction fuel with
  | zero => exact fun s h => OkP.timeout
  | succ fuel ih =>
    intro s h
    unfold Solver.insertSingly
    split
    · exact OkP.ok h
    · refine OkP.bind (advance_held h) fun s h => ?_
      split
      · exact ih s h
      · split
        · exact OkP.ok h
        · refine OkP.bind (insertCp_held h _) fun s h => OkP.bind (neighbors_held h _ _ _) fun ⟨s, b⟩ h => ?_
          dsimp only
          split
          · exact OkP.ok h
          · split
            · exact OkP.panic
            · split
              · exact OkP.ok h
              · exact ih _ h

theorem batchInsert_held : ∀ (fuel : Nat) (s : Solver), Held F s → Keeps F (Solver.batchInsert fuel s) := by
  intro fuel
  induction fuel with
  | zero => exact fun s h => OkP.timeout
  | succ fuel ih =>
    intro s h
    unfold Solver.batchInsert
    split
    · exact OkP.ok h
    · refine OkP.bind (advance_held h) fun s h => ?_
      split
      · exact ih s h
      · split
        · exact OkP.ok h
        · exact OkP.bind (insertCp_held h _) fun s h => ih s h

theorem batch_held (fuel : Nat) (b : Bool) (h : Held F s) : Keeps F (Solver.batch fuel b s) := by
  refine andThen_held (batchInsert_held _ _ h) fun s h => tryEach_held (fun s x h => ?_) _ _ _ h
  split
  · exact OkP.ok h
  · exact remove_held h _ _ _

theorem insertLoop_held (fuel0 : Nat) (b : Bool) : ∀ (fuel : Nat) (s : Solver), Held F s →
    Keeps F (Solver.insertLoop fuel0 b fuel s) := by
  intro fuel
  induction fuel with
  | zero => exact fun s h => OkP.timeout
  | succ fuel ih =>
    intro s h
    unfold Solver.insertLoop
    split
    · exact OkP.panic
    · dsimp only
      split
      · exact OkP.ok h
      · split
        · exact andThen_held (singly_held _ _ _ h) ih
        · exact andThen_held (batch_held _ _ h) ih

theorem update_held (fuel : Nat) (b b' : Bool) (h : Held F s) : Keeps F (Solver.update fuel b b' s) := by
  unfold Solver.update
  dsimp only
  split
  · exact OkP.panic
  · refine andThen_held (tryEach_held (fun s x h => remove_held h _ _ _) _ _ _ h) fun s h => ?_
    unfold Solver.insertEntries
    refine OkP.bind' fun _ => ?_
    split
    · exact andThen_held (batch_held (s := { s with cpElim := _ }) _ _ h) (insertLoop_held _ _ _)
    · exact insertLoop_held _ _ _ { s with cpElim := _ } h

theorem updateHousePoss_held (h : Held F s) : OkP s.updateHousePoss (Held F) := by
  unfold Solver.updateHousePoss
  split
  · exact OkP.panic
  · dsimp only
    split
    · exact OkP.panic
    · exact OkP.ok h

theorem conflicts_held (h : Held F s) (l : List Candidate) (f : Nat × Nat → RangeDeduction) :
    Held F (s.enterConflicts l f).1 := by
  unfold Solver.enterConflicts
  dsimp only
  split <;> exact h

theorem nakedLoop_held (cp : Vector DigitSet 81) (stop : Bool) : ∀ (l : List (Fin 81)) (s : Solver), Held F s →
    Keeps F (nakedSinglesLoop cp stop l s) := by
  intro l
  induction l with
  | nil => exact fun s h => OkP.ok h
  | cons c l ih =>
    intro s h
    unfold nakedSinglesLoop
    refine OkP.bind' fun a => ?_
    split
    · refine OkP.bind (P := fun r => Held F r.1) (push_held (h.more _ fun x hx => List.mem_append_left _ hx) _ _) fun ⟨s, b⟩ h => ?_
      dsimp only
      split
      · exact OkP.ok h
      · split
        · exact OkP.ok h
        · exact ih _ h
    · exact ih _ h

theorem hiddenCells_held (cp : Vector DigitSet 81) (stop : Bool) (house : Fin 27) : ∀ (l : List (Fin 81)) (m : DigitSet)
    (s : Solver), Held F s → Keeps F (hiddenSinglesCells cp stop house l m s) := by
  intro l
  induction l with
  | nil => exact fun m s h => OkP.ok h
  | cons c l ih =>
    intro m s h
    unfold hiddenSinglesCells
    refine OkP.bind' fun a => ?_
    split
    · exact ih _ _ h
    · exact OkP.ok h
    · refine OkP.bind (push_held h _ _) fun ⟨s, b⟩ h => ?_
      dsimp only
      split
      · exact OkP.ok h
      · split
        · exact OkP.ok h
        · split
          · exact OkP.ok h
          · exact ih _ _ h

theorem hiddenLoop_held (cp : Vector DigitSet 81) (hs : Vector DigitSet 27) (stop : Bool) : ∀ (l : List (Fin 27)) (s : Solver),
    Held F s → Keeps F (hiddenSinglesLoop cp hs stop l s) := by
  intro l
  induction l with
  | nil => exact fun s h => OkP.ok h
  | cons c l ih =>
    intro s h
    unfold hiddenSinglesLoop
    refine OkP.bind' fun a => ?_
    dsimp only
    split
    · exact OkP.ok h
    · split
      · exact ih { s with lastHouse := _ } h
      · refine OkP.bind (hiddenCells_held _ _ _ _ _ { s with lastHouse := _ } h) fun ⟨s, b⟩ h => ?_
        cases b with
        | none => exact OkP.ok h
        | some b => cases b with
          | true => exact OkP.ok h
          | false => exact ih _ h

theorem walkLoop_held {α A : Type} {visit : A → Solver → Res (Solver × Option Bool)} {step : A → α → Res (Option A)}
    (hv : ∀ a s, Held F s → Keeps F (visit a s)) : ∀ (l : List α) (a : A) (s : Solver), Held F s →
    Keeps F (walkLoop visit step l a s) := by
  intro l
  induction l with
  | nil => exact fun a s h => OkP.ok h
  | cons x l ih =>
    intro a s h
    unfold walkLoop
    refine OkP.bind' fun o => ?_
    split
    · exact ih _ _ h
    · refine OkP.bind (P := fun r => Held F r.1) (OkP.bind (hv _ _ h) fun ⟨s, b⟩ h => ?_) fun ⟨s, b⟩ h => ?_
      · cases b with
        | some b => exact OkP.ok h
        | none => exact ih _ _ h
      · dsimp only
        split
        · exact OkP.ok h
        · exact ih _ _ h

theorem walk_held {α A : Type} {visit : A → Solver → Res (Solver × Option Bool)} {step : A → α → Res (Option A)}
    (hv : ∀ a s, Held F s → Keeps F (visit a s)) (l : List α) (a : A) (s : Solver) (h : Held F s) :
    Keeps F (walk visit step l a s) := by
  unfold walk
  refine OkP.bind (hv _ _ h) fun ⟨s, b⟩ h => ?_
  cases b with
  | some b => exact OkP.ok h
  | none => exact walkLoop_held hv _ _ _ h

/-- The end of a search: `let (s, _) ← x; .ok (s, true)`. -/
private theorem done_held {x : Res (Solver × Bool)} (h : Keeps F x) :
    Keeps F (x >>= fun r => match r with | (s, _) => (.ok (s, true) : Res (Solver × Bool))) :=
  OkP.bind h fun _ h => OkP.ok h

theorem locked_held (fuel : Nat) (stop : Bool) (h : Held F s) : Keeps F (s.findLockedCandidates fuel stop) := by
  refine andThen_held (update_held _ _ _ h) fun s h => done_held (forUntil_held (fun s x h => ?_) _ _ h)
  unfold lockedChute
  refine OkP.bind' fun l => ?_
  split
  · refine forUntil_held (fun s i h => ?_) _ _ h
    unfold lockedMiniline
    dsimp only
    split
    · exact OkP.panic
    · refine forUntil_held (fun s x h => OkP.bind' fun ds => forUntil_held (fun s d h => ?_) _ _ h) _ _ h
      refine OkP.bind (P := fun r => Held F r.1) ?_ fun r h => OkP.ok h
      unfold onLocked
      exact OkP.bind' fun _ => OkP.bind' fun _ => OkP.bind' fun _ => OkP.bind' fun _ => OkP.ok (conflicts_held h _ _)
  · exact OkP.panic

theorem nakedSubsets_held (fuel : Nat) (size : UInt8) (stop : Bool) (h : Held F s) :
    Keeps F (s.findNakedSubsets fuel size stop) := by
  refine andThen_held (update_held _ _ _ h) fun s h => done_held (forUntil_held (fun s x h => ?_) _ _ h)
  split
  · exact OkP.ok h
  · refine OkP.bind' fun _ => walk_held (fun a s h => ?_) _ _ _ h
    unfold nakedVisit
    split
    · exact OkP.ok h
    · split
      · refine OkP.bind (P := fun r => Held F r.1) ?_ fun ⟨s, b⟩ h => ?_
        · unfold onNakedSubset
          exact OkP.bind' fun _ => OkP.bind' fun _ => OkP.ok (conflicts_held h _ _)
        · dsimp only
          split <;> exact OkP.ok h
      · exact OkP.ok h

theorem hiddenSubsets_held (fuel : Nat) (size : UInt8) (stop : Bool) (h : Held F s) :
    Keeps F (s.findHiddenSubsets fuel size stop) := by
  refine andThen_held (update_held _ _ _ h) fun s h => OkP.bind (updateHousePoss_held h) fun s h =>
    done_held (forUntil_held (fun s x h => ?_) _ _ h)
  split
  · exact OkP.ok h
  · refine OkP.bind' fun _ => walk_held (fun a s h => ?_) _ _ _ h
    unfold hiddenVisit
    split
    · exact OkP.ok h
    · split
      · refine OkP.bind (P := fun r => Held F r.1) ?_ fun ⟨s, b⟩ h => ?_
        · unfold onHiddenSubset
          exact OkP.bind' fun _ => OkP.bind' fun _ => OkP.ok (conflicts_held h _ _)
        · dsimp only
          split <;> exact OkP.ok h
      · exact OkP.ok h

theorem fish_held (fuel : Nat) (size : UInt8) (stop : Bool) (h : Held F s) : Keeps F (s.findFish fuel size stop) := by
  refine OkP.bind (updateHousePoss_held h) fun s h => andThen_held (update_held _ _ _ h) fun s h =>
    done_held (forUntil_held (fun s x h => forUntil_held (fun s ls h => ?_) _ _ h) _ _ h)
  refine OkP.bind' fun _ => walk_held (fun a s h => ?_) _ _ _ h
  unfold fishVisit
  split
  · split
    · exact OkP.ok h
    · refine OkP.bind (P := fun r => Held F r.1) ?_ fun ⟨s, b⟩ h => ?_
      · unfold onFish
        exact OkP.bind' fun _ => OkP.bind' fun _ => OkP.ok (conflicts_held h _ _)
      · dsimp only
        split <;> exact OkP.ok h
  · exact OkP.ok h

theorem mutantFish_held (fuel : Nat) (size : UInt8) (stop : Bool) (h : Held F s) :
    Keeps F (s.findMutantFish fuel size stop) := by
  refine OkP.bind (updateHousePoss_held h) fun s h => andThen_held (update_held _ _ _ h) fun s h =>
    done_held (forUntil_held (fun s x h => ?_) _ _ h)
  refine OkP.bind' fun _ => walk_held (fun a s h => ?_) _ _ _ h
  unfold baseVisit
  split
  · split
    · exact OkP.ok h
    · refine OkP.bind' fun _ => OkP.bind (P := fun r => Held F r.1) (walk_held (fun a s h => ?_) _ _ _ h) fun ⟨s, b⟩ h => ?_
      · unfold coverVisit
        split
        · refine OkP.bind (P := fun r => Held F r.1) ?_ fun r h => OkP.ok h
          unfold onMutantFish
          exact OkP.bind' fun _ => OkP.bind' fun _ => OkP.ok (conflicts_held h _ _)
        · exact OkP.ok h
      · dsimp only
        split <;> exact OkP.ok h
  · exact OkP.ok h

theorem wingPairs_held {onWing : Solver → Fin 81 → Fin 81 → Res (Solver × Bool)}
    (hw : ∀ s c c', Held F s → Keeps F (onWing s c c')) (cp : Vector DigitSet 81) (stop : Bool) (common : UInt8)
    (hinge : Fin 81) (cells : Pos.Cells × Pos.Cells) (s : Solver) (h : Held F s) :
    Keeps F (wingPairs cp stop common onWing hinge s cells) := by
  unfold wingPairs
  refine OkP.bind' fun _ => forUntil_held (fun s c1 h => OkP.bind' fun _ => forUntil_held (fun s c2 h => ?_) _ _ h) _ _ h
  split
  · exact OkP.ok h
  · exact OkP.bind (hw _ _ _ h) fun r h => OkP.ok h

theorem xyWing_held (fuel : Nat) (stop : Bool) (h : Held F s) : Keeps F (s.findXyWing fuel stop) := by
  refine andThen_held (update_held _ _ _ h) fun s h => done_held (forUntil_held (fun s x h => ?_) _ _ h)
  split
  · exact OkP.ok h
  · refine forUntil_held (fun s a h => wingPairs_held (fun s c c' h => ?_) _ _ _ _ _ s h) _ _ h
    unfold onXyWing
    exact OkP.bind' fun _ => OkP.bind' fun _ => OkP.ok (conflicts_held h _ _)

theorem xyzWing_held (fuel : Nat) (stop : Bool) (h : Held F s) : Keeps F (s.findXyzWing fuel stop) := by
  refine andThen_held (update_held _ _ _ h) fun s h => done_held (forUntil_held (fun s x h => ?_) _ _ h)
  split
  · exact OkP.ok h
  · refine forUntil_held (fun s a h => wingPairs_held (fun s c c' h => ?_) _ _ _ _ _ s h) _ _ h
    unfold onXyzWing
    exact OkP.bind' fun _ => OkP.bind' fun _ => OkP.bind' fun _ => OkP.ok (conflicts_held h _ _)

theorem nakedSingles_held (fuel : Nat) (stop : Bool) (h : Held F s) : Keeps F (s.findNakedSingles fuel stop) := by
  exact andThen_held (update_held _ _ _ h) fun s h => andThen_held (nakedLoop_held _ _ _ _ h) fun s h =>
    update_held _ _ _ h

theorem hiddenSingles_held (fuel : Nat) (stop : Bool) (h : Held F s) : Keeps F (s.findHiddenSingles fuel stop) := by
  exact andThen_held (update_held _ _ _ h) fun s h => andThen_held (hiddenLoop_held _ _ _ _ _ h) fun s h =>
    update_held _ _ _ h

theorem deduce_held (fuel : Nat) (st : Strategy) (stop first : Bool) (h : Held F s) :
    Keeps F (st.deduce fuel stop first s) := by
  cases st with
  | nakedSingles =>
    show Keeps F (if (!stop && first) = true then _ else _)
    split
    · exact update_held _ _ _ h
    · exact nakedSingles_held _ _ h
  | hiddenSingles => exact hiddenSingles_held _ _ h
  | lockedCandidates => exact locked_held _ _ h
  | nakedPairs => exact nakedSubsets_held _ _ _ h
  | nakedTriples => exact nakedSubsets_held _ _ _ h
  | nakedQuads => exact nakedSubsets_held _ _ _ h
  | hiddenPairs => exact hiddenSubsets_held _ _ _ h
  | hiddenTriples => exact hiddenSubsets_held _ _ _ h
  | hiddenQuads => exact hiddenSubsets_held _ _ _ h
  | xWing => exact fish_held _ _ _ h
  | swordfish => exact fish_held _ _ _ h
  | jellyfish => exact fish_held _ _ _ h
  | xyWing => exact xyWing_held _ _ h
  | xyzWing => exact xyzWing_held _ _ h
  | mutantSwordfish => exact mutantFish_held _ _ _ h
  | mutantJellyfish => exact mutantFish_held _ _ _ h
  | avoidableRectangles => exact OkP.panic

theorem restLoop_held (fuel n m : Nat) : ∀ (l : List Strategy) (s : Solver), Held F s → Keeps F (restLoop fuel n m l s) := by
  intro l
  induction l with
  | nil => exact fun s h => OkP.ok h
  | cons st l ih =>
    intro s h
    unfold restLoop
    refine OkP.bind (deduce_held _ _ _ _ h) fun ⟨s, b⟩ h => ?_
    dsimp only
    split
    · exact OkP.ok h
    · split
      · exact OkP.ok h
      · exact ih _ h

theorem solveLoop_held (fuel0 : Nat) (first : Strategy) (rest : List Strategy) : ∀ (fuel : Nat) (s : Solver), Held F s →
    OkP (solveLoop fuel0 first rest fuel s) (Held F) := by
  intro fuel
  induction fuel with
  | zero => exact fun s h => OkP.timeout
  | succ fuel ih =>
    intro s h
    unfold solveLoop
    split
    · exact OkP.ok h
    · refine OkP.bind (deduce_held _ _ _ _ h) fun ⟨s, b⟩ h => ?_
      dsimp only
      split
      · exact OkP.ok h
      · split
        · exact ih _ h
        · refine OkP.bind (restLoop_held _ _ _ _ _ h) fun ⟨s, b⟩ h => ?_
          dsimp only
          split
          · exact ih _ h
          · exact OkP.ok h

/-- The grid that `solve` returns, also in contradictory states. -/
theorem returned_held {fuel : Nat} {sts : List Strategy} {r : Grid × Deductions} (h : Held F s) (hr : Returned fuel sts s r) :
    (∀ c : Fin 81, r.1[c] = 0 ∨ ∃ d : Digit, r.1[c] = d.get) ∧ ∀ c : Fin 81, F c → r.1[c] ≠ 0 := by
  have key : OkP (s.solve fuel sts) fun x => ∀ r, x = .ok r ∨ x = .error r →
      (∀ c : Fin 81, r.1[c] = 0 ∨ ∃ d : Digit, r.1[c] = d.get) ∧ ∀ c : Fin 81, F c → r.1[c] ≠ 0 := by
    unfold Solver.solve
    refine OkP.bind (P := Held F) ?_ fun s h => ?_
    · unfold Solver.trySolve
      split
      · exact OkP.ok h
      · exact solveLoop_held _ _ _ _ _ h
    · dsimp only
      split
      all_goals
        refine OkP.ok fun ⟨s, b⟩ hr => ?_
        dsimp only
        rcases hr with hr | hr <;> cases hr
        exact ⟨h.updateGrid.1.1, h.updateGrid.2⟩
  rcases hr with hr | hr
  · exact key _ hr r (Or.inl rfl)
  · exact key _ hr r (Or.inr rfl)

end Verif.Strat
