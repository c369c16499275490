import Mathlib.Data.Finset.Card
import Mathlib.Data.Fintype.Fin
import Verif.Proofs.StratApi
import Verif.Proofs.StratQuiet

/-!
# A failed update of the caches of the strategy solver leaves a cell that is never counted
-/
namespace Verif.Strat

open Verif Verif.Bitset

/-- `K` are the cells that were counted. -/
structure Counted (s : Solver) (K : Finset (Fin 81)) : Prop where
  card : s.nSolved = K.card
  empty : ∀ c ∈ K, s.cp[c] = 0#16

/-- The cell will not be counted any more. -/
def Dead (s : Solver) (x : Fin 81) : Prop :=
  s.cp[x] = 0#16 ∨ (∃ e ∈ s.deduced, e.cell = x) ∧ ∀ e ∈ s.deduced.drop s.cpNext, e.cell ≠ x

/-- No cell has two entries. -/
def Uniq (s : Solver) : Prop := (s.deduced.map (·.cell)).Nodup

structure Keep (s : Solver) (K : Finset (Fin 81)) (s' : Solver) (K' : Finset (Fin 81)) : Prop where
  counted : Counted s' K'
  ded : s'.deduced = s.deduced
  dead : ∀ x, x ∉ K → Dead s x → x ∉ K' ∧ Dead s' x

theorem Keep.refl {s : Solver} {K : Finset (Fin 81)} (h : Counted s K) : Keep s K s K := ⟨h, rfl, fun _ h1 h2 => ⟨h1, h2⟩⟩

theorem Keep.trans {s s' s'' : Solver} {K K' K'' : Finset (Fin 81)} (h : Keep s K s' K') (h' : Keep s' K' s'' K'') :
    Keep s K s'' K'' :=
  ⟨h'.counted, h'.ded.trans h.ded, fun x h1 h2 => h'.dead x (h.dead x h1 h2).1 (h.dead x h1 h2).2⟩

theorem Keep.shrink {s s' : Solver} {K : Finset (Fin 81)} (h : Counted s K) (hn : s'.nSolved = s.nSolved)
    (hs : Sub s'.cp s.cp) (hd : s'.deduced = s.deduced) (hc : s.cpNext ≤ s'.cpNext) : Keep s K s' K := by
  refine ⟨⟨hn.trans h.card, fun c hc => hs.zero (h.empty c hc)⟩, hd, fun x h1 h2 => ⟨h1, ?_⟩⟩
  rcases h2 with h2 | ⟨h2, h3⟩
  · exact Or.inl (hs.zero h2)
  · refine Or.inr ⟨by rw [hd]; exact h2, fun e he => h3 e ?_⟩
    rw [hd] at he
    exact List.drop_subset_drop_left _ hc he

/-- What a step does: it keeps the dead cells, and if it fails there is one. -/
def Post (s : Solver) (K : Finset (Fin 81)) (r : Solver × Bool) : Prop :=
  ∃ K', Keep s K r.1 K' ∧ (r.2 = false → ∃ x, x ∉ K' ∧ Dead r.1 x)

theorem Post.after {s s' : Solver} {K K' : Finset (Fin 81)} {r : Solver × Bool} (h : Keep s K s' K') (h' : Post s' K' r) :
    Post s K r := by
  obtain ⟨K'', h1, h2⟩ := h'
  exact ⟨K'', h.trans h1, h2⟩

/-- A loop of removals. -/
theorem tryEach_lost {f : Solver → Fin 81 → Res (Solver × Bool)}
    (hf : ∀ s x K, Counted s K → Res.Part (f s x) (Post s K)) : ∀ (l : List (Fin 81)) (s : Solver) (K : Finset (Fin 81)),
    Counted s K → Res.Part (tryEach f true l s) (Post s K) := by
  intro l
  induction l with
  | nil => intro s K h; exact Res.Part.ok ⟨K, Keep.refl h, fun hc => by cases hc⟩
  | cons x xs ih =>
    intro s K h
    unfold tryEach
    refine Res.Part.bind (hf s x K h) ?_
    rintro ⟨s1, ok⟩ ⟨K', h1, h2⟩
    cases ok
    · exact Res.Part.ok ⟨K', h1, h2⟩
    · exact Res.Part.mono (ih s1 K' h1.counted) (fun r hr => hr.after h1)

theorem remove_keep {s : Solver} {K : Finset (Fin 81)} (h : Counted s K) (cell : Fin 81) (m : DigitSet) :
    Res.Part (s.removeImpossibilities cell m false) (fun r => Keep s K r.1 K ∧
      (r.2 = false → r.1.cp[cell] = 0#16)) := by
  unfold Solver.removeImpossibilities
  dsimp only
  rw [if_neg (by decide)]
  refine Res.Part.ok ⟨Keep.shrink h rfl ?_ rfl (Nat.le_refl _), fun h0 => ?_⟩
  · intro c i hb
    dsimp only at hb
    rw [get_set_fin] at hb
    split at hb
    · rename_i hc
      subst hc
      rw [bit_without, Bool.and_eq_true] at hb
      exact hb.1
    · exact hb
  · dsimp only
    rw [get_set_fin, if_pos rfl]
    simp only [Bool.not_eq_false'] at h0
    exact (isEmpty_iff (by omega)).mp h0

theorem remove_post {s : Solver} {K : Finset (Fin 81)} (h : Counted s K) (cell : Fin 81) (m : DigitSet)
    (hne : s.cp[cell] ≠ 0#16) : Res.Part (s.removeImpossibilities cell m false) (Post s K) := by
  refine Res.Part.mono (remove_keep h cell m) ?_
  rintro r ⟨h1, h2⟩
  exact ⟨K, h1, fun h0 => ⟨cell, fun hc => hne (h.empty cell hc), Or.inl (h2 h0)⟩⟩

theorem batchRemove_post {s : Solver} {K : Finset (Fin 81)} (h : Counted s K) :
    Res.Part (s.batchRemove false) (Post s K) := by
  refine tryEach_lost (fun s x K h => ?_) _ s K h
  split
  · exact Res.Part.ok ⟨K, Keep.refl h, fun hc => by cases hc⟩
  · rename_i h0
    exact remove_post h x _ (fun hc => h0 ((isEmpty_iff (by omega)).mpr hc))

theorem removeFromNeighbors_post {s : Solver} {K : Finset (Fin 81)} (h : Counted s K) (m : DigitSet) (l : List (Fin 81)) :
    Res.Part (s.removeFromNeighbors m false l) (Post s K) := by
  refine tryEach_lost (fun s x K h => ?_) l s K h
  split
  · rename_i h0
    refine remove_post h x _ (fun hc => ?_)
    rw [hc] at h0
    revert h0
    simp [overlaps, inter, isEmpty]
    rfl
  · exact Res.Part.ok ⟨K, Keep.refl h, fun hc => by cases hc⟩

theorem advanced_keep {s : Solver} {K : Finset (Fin 81)} (h : Counted s K) : Keep s K s.advanced K :=
  Keep.shrink h rfl (Sub.refl _) rfl (Nat.le_succ _)

/-- An entry is passed over although its cell is open. -/
theorem dead_advanced {s : Solver} {K : Finset (Fin 81)} {e : Candidate} (h : Counted s K) (hu : Uniq s)
    (he : s.deduced[s.cpNext]? = some e) (h0 : s.cp[e.cell] ≠ 0#16) : ∃ x, x ∉ K ∧ Dead s.advanced x := by
  refine ⟨e.cell, fun hc => h0 (h.empty _ hc), Or.inr ⟨⟨e, List.mem_of_getElem? he, rfl⟩, ?_⟩⟩
  intro e' he' hc
  obtain ⟨i, hi⟩ := List.getElem?_of_mem he'
  rw [List.getElem?_drop] at hi
  have hi : s.deduced[s.cpNext + 1 + i]? = some e' := hi
  have h1 : (s.deduced.map (·.cell))[s.cpNext]? = some e.cell := by rw [List.getElem?_map, he]; rfl
  have h2 : (s.deduced.map (·.cell))[s.cpNext + 1 + i]? = some e.cell := by rw [List.getElem?_map, hi, ← hc]; rfl
  obtain ⟨l1, g1⟩ := List.getElem?_eq_some_iff.mp h1
  obtain ⟨l2, g2⟩ := List.getElem?_eq_some_iff.mp h2
  have := (List.Nodup.getElem_inj_iff hu).mp (g1.trans g2.symm)
  omega

theorem entered_keep {s : Solver} {K : Finset (Fin 81)} {e : Candidate} (h : Counted s K)
    (he : s.deduced[s.cpNext]? = some e) (h0 : s.cp[e.cell] ≠ 0#16) :
    Keep s K (s.advanced.entered e) (insert e.cell K) := by
  have hn : e.cell ∉ K := fun hc => h0 (h.empty _ hc)
  have hsub : Sub (s.advanced.entered e).cp s.cp := sub_set_none s.cp e.cell
  refine ⟨⟨?_, fun c hc => ?_⟩, rfl, fun x h1 h2 => ⟨fun hc => ?_, ?_⟩⟩
  · rw [Finset.card_insert_of_notMem hn, ← h.card]
    rfl
  · rcases Finset.mem_insert.mp hc with rfl | hc
    · show (s.cp.set e.cell (NONE 16))[e.cell] = 0#16
      rw [get_set_fin, if_pos rfl]
      rfl
    · exact hsub.zero (h.empty c hc)
  · rcases Finset.mem_insert.mp hc with rfl | hc
    · rcases h2 with h2 | ⟨-, h2⟩
      · exact h0 h2
      · refine h2 e ?_ rfl
        rw [List.mem_iff_getElem?]
        exact ⟨0, by rw [List.getElem?_drop]; exact he⟩
    · exact h1 hc
  · exact ((advanced_keep h).dead x h1 h2).2.imp hsub.zero id

theorem insertSingly_post : ∀ (fuel : Nat) (s : Solver) (K : Finset (Fin 81)), Counted s K → Uniq s →
    Res.Part (Solver.insertSingly false fuel s) (Post s K) := by
  intro fuel
  induction fuel with
  | zero => intro s K _ _ r hr; cases hr
  | succ fuel ih =>
    intro s K h hu
    unfold Solver.insertSingly
    split
    · exact Res.Part.ok ⟨K, Keep.refl h, fun h => by cases h⟩
    · rename_i e he
      refine Res.Part.bind (advance_part (P := fun x => x = s.advanced) rfl) ?_
      rintro _ rfl
      have ha := advanced_keep h
      split
      · exact Res.Part.mono (ih s.advanced K ha.counted hu) (fun r hr => hr.after ha)
      · rename_i h0
        have h0 : s.cp[e.cell] ≠ 0#16 := fun hc => h0 ((isEmpty_iff (by omega)).mpr hc)
        split
        · exact Res.Part.ok ⟨K, ha, fun _ => dead_advanced h hu he h0⟩
        · refine Res.Part.bind (insert_part (P := fun x => x = s.advanced.entered e) rfl) ?_
          rintro _ rfl
          have hk := entered_keep h he h0
          refine Res.Part.bind (removeFromNeighbors_post hk.counted _ _) ?_
          rintro ⟨s2, ok⟩ ⟨K2, r1, r2⟩
          show Res.Part (if (!ok) = true then _ else _) _
          have hk2 := hk.trans r1
          cases ok
          · exact Res.Part.ok ⟨K2, hk2, r2⟩
          · show Res.Part (if s2.deduced.length < s2.cpNext then _ else _) _
            split
            · intro r hr; cases hr
            · split
              · exact Res.Part.ok ⟨K2, hk2, fun hc => by cases hc⟩
              · refine Res.Part.mono (ih s2 K2 hk2.counted ?_) (fun r hr => hr.after hk2)
                show (s2.deduced.map (·.cell)).Nodup
                rw [hk2.ded]
                exact hu

theorem batchInsert_post : ∀ (fuel : Nat) (s : Solver) (K : Finset (Fin 81)), Counted s K → Uniq s →
    Res.Part (Solver.batchInsert fuel s) (Post s K) := by
  intro fuel
  induction fuel with
  | zero => intro s K _ _ r hr; cases hr
  | succ fuel ih =>
    intro s K h hu
    unfold Solver.batchInsert
    split
    · exact Res.Part.ok ⟨K, Keep.refl h, fun h => by cases h⟩
    · rename_i e he
      refine Res.Part.bind (advance_part (P := fun x => x = s.advanced) rfl) ?_
      rintro _ rfl
      have ha := advanced_keep h
      split
      · exact Res.Part.mono (ih s.advanced K ha.counted hu) (fun r hr => hr.after ha)
      · rename_i h0
        have h0 : s.cp[e.cell] ≠ 0#16 := fun hc => h0 ((isEmpty_iff (by omega)).mpr hc)
        split
        · exact Res.Part.ok ⟨K, ha, fun _ => dead_advanced h hu he h0⟩
        · refine Res.Part.bind (insert_part (P := fun x => x = s.advanced.entered e) rfl) ?_
          rintro _ rfl
          have hk := entered_keep h he h0
          exact Res.Part.mono (ih _ _ hk.counted hu) (fun r hr => hr.after hk)

theorem andThen_post {s : Solver} {K : Finset (Fin 81)} {x : Res (Solver × Bool)} {f : Solver → Res (Solver × Bool)}
    (h : Res.Part x (Post s K)) (hu : Uniq s)
    (hf : ∀ s' K', Counted s' K' → Uniq s' → Res.Part (f s') (Post s' K')) : Res.Part (andThen x f) (Post s K) := by
  unfold andThen
  refine Res.Part.bind h ?_
  rintro ⟨s1, ok⟩ ⟨K1, h1, h2⟩
  cases ok
  · exact Res.Part.ok ⟨K1, h1, h2⟩
  · refine Res.Part.mono (hf s1 K1 h1.counted ?_) (fun r hr => hr.after h1)
    show (s1.deduced.map (·.cell)).Nodup
    rw [h1.ded]
    exact hu

theorem batch_post (fuel : Nat) (s : Solver) (K : Finset (Fin 81)) (h : Counted s K) (hu : Uniq s) :
    Res.Part (Solver.batch fuel false s) (Post s K) :=
  andThen_post (batchInsert_post fuel s K h hu) hu (fun _ _ h _ => batchRemove_post h)

theorem insertLoop_post (fuel0 : Nat) : ∀ (fuel : Nat) (s : Solver) (K : Finset (Fin 81)), Counted s K → Uniq s →
    Res.Part (Solver.insertLoop fuel0 false fuel s) (Post s K) := by
  intro fuel
  induction fuel with
  | zero => intro s K _ _ r hr; cases hr
  | succ fuel ih =>
    intro s K h hu
    unfold Solver.insertLoop
    dsimp only
    split
    · intro r hr; cases hr
    · split
      · exact Res.Part.ok ⟨K, Keep.refl h, fun h => by cases h⟩
      · split
        · exact andThen_post (insertSingly_post fuel0 s K h hu) hu ih
        · exact andThen_post (batch_post fuel0 s K h hu) hu ih

/-- The update of `cell_state`. -/
theorem update_post (fuel : Nat) (s : Solver) (K : Finset (Fin 81)) (h : Counted s K) (hu : Uniq s) :
    Res.Part (Solver.update fuel false false s) (Post s K) := by
  unfold Solver.update
  dsimp only
  split
  · intro r hr; cases hr
  · rename_i hle
    rw [decide_eq_false (by omega)]
    have key : Res.Part (tryEach (fun s e => s.removeImpossibilities e.cell e.digitSet false) false
        (s.eliminated.drop s.cpElim) s) (fun r => Keep s K r.1 K ∧ r.2 = true) := by
      generalize s.eliminated.drop s.cpElim = l
      have : ∀ (l : List Candidate) (s' : Solver), Keep s K s' K →
          Res.Part (tryEach (fun s e => s.removeImpossibilities e.cell e.digitSet false) false l s')
            (fun r => Keep s K r.1 K ∧ r.2 = true) := by
        intro l
        induction l with
        | nil => intro s' h; exact Res.Part.ok ⟨h, rfl⟩
        | cons x xs ih =>
          intro s' h
          unfold tryEach
          refine Res.Part.bind (remove_keep h.counted x.cell x.digitSet) ?_
          rintro ⟨s1, ok⟩ ⟨h1, -⟩
          exact ih s1 (h.trans h1)
      exact this l s (Keep.refl h)
    unfold andThen
    refine Res.Part.bind key ?_
    rintro ⟨s1, ok⟩ ⟨h1, h2⟩
    dsimp only at h1 h2
    subst h2
    simp only [if_true]
    have h2 : Keep s K { s1 with cpElim := s1.eliminated.length % 65536 } K :=
      h1.trans (Keep.shrink h1.counted rfl (Sub.refl _) rfl (Nat.le_refl _))
    unfold Solver.insertEntries
    intro r hr
    obtain ⟨-, -, hr⟩ := bind_ok hr
    rw [if_neg (by decide)] at hr
    refine Post.after h2 (insertLoop_post fuel fuel _ K h2.counted ?_ r hr)
    show (s1.deduced.map (·.cell)).Nodup
    rw [h1.ded]
    exact hu

/-! ## The histories -/

/-- A cell was lost. -/
def Lost (s : Solver) : Prop := ∃ K x, Counted s K ∧ x ∉ K ∧ Dead s x

theorem clueCount_card (g : Grid) : clueCount g = (Finset.univ.filter (fun c : Fin 81 => g[c] ≠ 0)).card := by
  unfold clueCount
  rw [List.countP_eq_length_filter, ← List.toFinset_card_of_nodup ((List.nodup_finRange 81).filter _)]
  congr 1
  ext c
  simp

theorem Gh.counted {s : Solver} {g : Grid} (h : Gh s g) : Counted s (Finset.univ.filter (fun c : Fin 81 => g[c] ≠ 0)) :=
  ⟨h.count.trans (clueCount_card g), fun c hc => h.empty c (Finset.mem_filter.mp hc).2⟩

theorem Inv.uniq {s : Solver} {g : Grid} {X : Fin 81 → Digit → Prop} (h : Inv s g X) : Uniq s := by
  have h1 : (Finset.univ.filter (fun c : Fin 81 => g[c] ≠ 0)) ⊆ (s.deduced.map (·.cell)).toFinset := by
    intro c hc
    obtain ⟨d, hd⟩ := h.wf c (Finset.mem_filter.mp hc).2
    rw [List.mem_toFinset, List.mem_map]
    exact ⟨_, (h.ded c d).mpr hd, rfl⟩
  have h2 := Finset.card_le_card h1
  rw [← clueCount_card, ← h.len] at h2
  have h3 := List.toFinset_card_le (s.deduced.map (·.cell))
  rw [List.length_map] at h3
  have h4 : (s.deduced.map (·.cell)).toFinset.card = (s.deduced.map (·.cell)).length := by
    rw [List.length_map]; omega
  exact Multiset.toFinset_card_eq_card_iff_nodup.mp h4

theorem Lost.of_counted {s s' : Solver} {K K' : Finset (Fin 81)} (h : Keep s K s' K') {x : Fin 81} (h1 : x ∉ K)
    (h2 : Dead s x) : Lost s' := ⟨K', x, h.counted, h.dead x h1 h2⟩

/-- `insert_candidate` counts nothing. -/
theorem Lost.insert {s s' : Solver} {g : Grid} {X : Fin 81 → Digit → Prop} {b : Bool} (hi : Inv s g X) (h : Lost s)
    (e : Candidate) (he : s.insertCandidate e = .ok (s', b)) : Lost s' := by
  obtain ⟨K, x, ⟨h1, h2⟩, h3, h4⟩ := h
  obtain ⟨-, hg⟩ := hi.updateGrid
  unfold Solver.insertCandidate at he
  have key : s'.nSolved = s.nSolved ∧ s'.cp = s.cp ∧ s'.cpNext = s.cpNext ∧
      (s'.deduced = s.deduced ∨ g[e.cell] = 0 ∧ s'.deduced = s.deduced ++ [e]) := by
    rcases push_cases s.updateGrid e (.nakedSingles e) (Or.inl rfl) with ⟨g2, e2⟩ | ⟨g2, e2⟩ | ⟨g2, g3, e2⟩
    · rw [e2, Res.ok_bind] at he
      cases he
      exact ⟨rfl, rfl, rfl, Or.inl rfl⟩
    · rw [e2, Res.ok_bind] at he
      cases he
      exact ⟨rfl, rfl, rfl, Or.inr ⟨by rw [← hg]; exact g2, rfl⟩⟩
    · rw [e2, Res.ok_bind] at he
      cases he
      exact ⟨rfl, rfl, rfl, Or.inl rfl⟩
  obtain ⟨k1, k2, k3, k4⟩ := key
  refine ⟨K, x, ⟨k1.trans h1, by rw [k2]; exact h2⟩, h3, ?_⟩
  unfold Dead
  rw [k2, k3]
  refine h4.imp id ?_
  rintro ⟨⟨e', m1, m2⟩, h5⟩
  rcases k4 with k4 | ⟨k4, k5⟩
  · rw [k4]
    exact ⟨⟨e', m1, m2⟩, h5⟩
  · rw [k5]
    refine ⟨⟨e', List.mem_append_left _ m1, m2⟩, fun e'' he'' => ?_⟩
    rw [List.drop_append] at he''
    rcases List.mem_append.mp he'' with m | m
    · exact h5 e'' m
    · have hm := List.mem_singleton.mp (List.mem_of_mem_drop m)
      subst hm
      intro hc
      subst hc
      have := hi.ded' m1
      simp only [m2] at this
      exact Digit.get_ne_zero _ (this.symm.trans k4)

/-- Whatever was called: the caches have their meaning, or a cell was lost. -/
theorem Reaches.lost {looked : Bool} {s : Solver} {g : Grid} {X : Fin 81 → Digit → Prop} (h : Reaches looked s g X) :
    (∃ gh, Sem s gh) ∨ Lost s := by
  induction h with
  | @sudoku g s hg he =>
    obtain ⟨s', e, h1, h2⟩ := fromSudoku_spec hg
    rw [e] at he
    cases he
    exact Or.inl ⟨_, h2⟩
  | @gridState state s he =>
    obtain ⟨s', e, h1, h2⟩ := fromGridState_spec state
    rw [e] at he
    cases he
    exact Or.inl ⟨_, h2⟩
  | toSudoku h ih =>
    rcases ih with ⟨gh, hs⟩ | ⟨K, x, h1, h2, h3⟩
    · exact Or.inl ⟨gh, hs.updateGrid h.inv.1⟩
    · exact Or.inr ⟨K, x, ⟨h1.card, h1.empty⟩, h2, h3⟩
  | @cellState looked s s' g X fuel c r h hf he ih =>
    obtain ⟨h1, -⟩ := h.inv.1.updateGrid
    unfold Solver.cellState at he
    obtain ⟨⟨s1, ok⟩, e1, he⟩ := bind_ok he
    obtain ⟨r', -, he⟩ := bind_ok he
    have he : s1 = s' := congrArg Prod.fst (Res.ok.inj he)
    subst he
    have hp : ∀ K, Counted s.updateGrid K → Post s.updateGrid K (s1, ok) := fun K hK =>
      update_post fuel s.updateGrid K hK h1.uniq _ e1
    rcases ih with ⟨gh, hs⟩ | ⟨K, x, hK, h2, h3⟩
    · have hs := hs.updateGrid h.inv.1
      cases ok
      · right
        obtain ⟨K', p1, p2⟩ := hp _ hs.gh.counted
        obtain ⟨x, p3, p4⟩ := p2 rfl
        exact ⟨K', x, p1.counted, p3, p4⟩
      · left
        obtain ⟨g', p, p1, -⟩ := update_g fuel false false hs.gh hs.closed hs.fresh _ e1
        have hw := (update_w (k := 0) (fuel := fuel) (by omega) false false (by omega) _ h1.w)
        rw [e1] at hw
        obtain ⟨-, -, w3, -⟩ := hw
        exact ⟨g', p.gh, (p1 rfl).1, (p1 rfl).2, p.trace.gsrc h1.gsrc, Pend.of_all (w3 rfl).cpE⟩
    · right
      obtain ⟨K', p1, -⟩ := hp K ⟨hK.card, hK.empty⟩
      exact Lost.of_counted p1 h2 h3
  | @insertOk looked s s' g X e h he ih =>
    rcases ih with ⟨gh, hs⟩ | hl
    · rcases insert_spec h.inv.1 e with ⟨h0, s1, e1, h1, h2⟩ | ⟨_, _, s1, e1, _⟩
      · rw [e1] at he
        cases he
        exact Or.inl ⟨gh, h2 gh hs⟩
      · rw [e1] at he; cases he
    · exact Or.inr (hl.insert h.inv.1 e he)
  | @insertErr looked s s' g X e h he ih =>
    rcases ih with ⟨gh, hs⟩ | hl
    · rcases insert_spec h.inv.1 e with ⟨_, s1, e1, _⟩ | ⟨_, _, s1, e1, h1, h2⟩
      · rw [e1] at he; cases he
      · rw [e1] at he
        cases he
        exact Or.inl ⟨gh, h2 gh hs⟩
    · exact Or.inr (hl.insert h.inv.1 e he)

/-- With a lost cell, the solver never counts all cells. -/
theorem Lost.notSolved {s : Solver} (h : Lost s) : s.isSolved = false := by
  obtain ⟨K, x, h1, h2, -⟩ := h
  have : K.card < 81 := by
    have := Finset.card_lt_univ_of_notMem h2
    simpa using this
  unfold Solver.isSolved
  rw [h1.card]
  exact beq_false_of_ne (by omega)

end Verif.Strat
