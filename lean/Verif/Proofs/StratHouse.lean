import Verif.Proofs.StratTotal

/-! # The strategy solver: the possible positions of the digits in the houses -/
namespace Verif.Strat

open Bitset Generator

abbrev HousePoss := Vector (Vector PosSet 9) 27

/-- `hp'` allows no more than `hp`. -/
def SubP (hp' hp : HousePoss) : Prop :=
  ∀ (h : Fin 27) (d : Digit) (i : Nat), hp'[h][d].getLsbD i = true → hp[h][d].getLsbD i = true

theorem SubP.refl (hp : HousePoss) : SubP hp hp := fun _ _ _ h => h
theorem SubP.trans {a b c : HousePoss} (h : SubP a b) (h' : SubP b c) : SubP a c := fun x d i hx => h' x d i (h x d i hx)

theorem hp_set_get (hp : HousePoss) (h h' : Fin 27) (d d' : Digit) (v : PosSet) :
    (hp.set h.val (hp[h].set d.val v d.isLt) h.isLt)[h'][d'] = if h = h' ∧ d = d' then v else hp[h'][d'] := by
  rw [get_set_fin]
  by_cases hh : h = h'
  · subst hh
    rw [if_pos rfl, get_set_fin]
    by_cases hd : d = d'
    · rw [if_pos hd, if_pos ⟨rfl, hd⟩]
    · rw [if_neg hd, if_neg (fun hc => hd hc.2)]
  · rw [if_neg hh, if_neg (fun hc => hh hc.1)]

theorem removePos_bit (hp : HousePoss) (h h' : Fin 27) (d d' : Digit) (p : Fin 9) (i : Nat) :
    (removePos hp h d p)[h'][d'].getLsbD i = true ↔ hp[h'][d'].getLsbD i = true ∧ ¬ (h = h' ∧ d = d' ∧ p.val = i) := by
  unfold removePos
  rw [hp_set_get]
  by_cases hc : h = h' ∧ d = d'
  · obtain ⟨rfl, rfl⟩ := hc
    rw [if_pos ⟨rfl, rfl⟩, bit_without, Bool.and_eq_true, Bool.not_eq_true', ← Bool.not_eq_true,
      bit_asSet (by omega)]
    simp
  · rw [if_neg hc]
    have : ¬ (h = h' ∧ d = d' ∧ p.val = i) := fun hx => hc ⟨hx.1, hx.2.1⟩
    simp [this]

theorem clearPos_bit (hp : HousePoss) (h h' : Fin 27) (d d' : Digit) (i : Nat) :
    (clearPos hp h d)[h'][d'].getLsbD i = true ↔ hp[h'][d'].getLsbD i = true ∧ ¬ (h = h' ∧ d = d') := by
  unfold clearPos
  rw [hp_set_get]
  by_cases hc : h = h' ∧ d = d'
  · rw [if_pos hc, bit_none]; simp [hc]
  · rw [if_neg hc]; simp [hc]

theorem hca_cases : ∀ (h : Fin 27) (p : Fin 9),
    (Pos.rowHouse (Pos.cellRow (Pos.houseCellAt h p)) = h ∧ Pos.rowPos (Pos.houseCellAt h p) = p) ∨
    (Pos.colHouse (Pos.cellCol (Pos.houseCellAt h p)) = h ∧ Pos.colPos (Pos.houseCellAt h p) = p) ∨
    (Pos.blockHouse (Pos.cellBlock (Pos.houseCellAt h p)) = h ∧ Pos.blockPos (Pos.houseCellAt h p) = p) := by
  decide +kernel

theorem hca_row : ∀ c : Fin 81, Pos.houseCellAt (Pos.rowHouse (Pos.cellRow c)) (Pos.rowPos c) = c := by decide +kernel
theorem hca_col : ∀ c : Fin 81, Pos.houseCellAt (Pos.colHouse (Pos.cellCol c)) (Pos.colPos c) = c := by decide +kernel
theorem hca_block : ∀ c : Fin 81, Pos.houseCellAt (Pos.blockHouse (Pos.cellBlock c)) (Pos.blockPos c) = c := by
  decide +kernel

theorem removeCellDigit_bit (hp : HousePoss) (c : Fin 81) (d d' : Digit) (h : Fin 27) (p : Fin 9) :
    (removeCellDigit hp c d)[h][d'].getLsbD p.val = true ↔
      hp[h][d'].getLsbD p.val = true ∧ ¬ (d = d' ∧ Pos.houseCellAt h p = c) := by
  unfold removeCellDigit
  dsimp only
  rw [removePos_bit, removePos_bit, removePos_bit]
  constructor
  · rintro ⟨⟨⟨hb, h1⟩, h2⟩, h3⟩
    refine ⟨hb, ?_⟩
    rintro ⟨rfl, rfl⟩
    rcases hca_cases h p with ⟨a, b⟩ | ⟨a, b⟩ | ⟨a, b⟩
    · exact h1 ⟨a, rfl, congrArg Fin.val b⟩
    · exact h2 ⟨a, rfl, congrArg Fin.val b⟩
    · exact h3 ⟨a, rfl, congrArg Fin.val b⟩
  · rintro ⟨hb, hn⟩
    refine ⟨⟨⟨hb, ?_⟩, ?_⟩, ?_⟩
    · rintro ⟨rfl, rfl, e⟩
      exact hn ⟨rfl, by rw [← Fin.ext e, hca_row]⟩
    · rintro ⟨rfl, rfl, e⟩
      exact hn ⟨rfl, by rw [← Fin.ext e, hca_col]⟩
    · rintro ⟨rfl, rfl, e⟩
      exact hn ⟨rfl, by rw [← Fin.ext e, hca_block]⟩

theorem removePos_sub (hp : HousePoss) (h : Fin 27) (d : Digit) (p : Fin 9) : SubP (removePos hp h d p) hp := by
  intro h' d' i hi
  rw [removePos_bit] at hi
  exact hi.1

theorem clearPos_sub (hp : HousePoss) (h : Fin 27) (d : Digit) : SubP (clearPos hp h d) hp := by
  intro h' d' i hi
  rw [clearPos_bit] at hi
  exact hi.1

theorem removeCellDigit_sub (hp : HousePoss) (c : Fin 81) (d : Digit) : SubP (removeCellDigit hp c d) hp :=
  (removePos_sub _ _ _ _).trans ((removePos_sub _ _ _ _).trans (removePos_sub _ _ _ _))

theorem foldl_sub {α : Type} {f : HousePoss → α → HousePoss} (hf : ∀ hp a, SubP (f hp a) hp) :
    ∀ (l : List α) (hp : HousePoss), SubP (l.foldl f hp) hp
  | [], hp => SubP.refl hp
  | a :: l, hp => (foldl_sub hf l (f hp a)).trans (hf hp a)

theorem enterPos_sub (hp : HousePoss) (e : Candidate) : SubP (enterPos hp e) hp := by
  unfold enterPos
  exact (clearPos_sub _ _ _).trans ((clearPos_sub _ _ _).trans ((clearPos_sub _ _ _).trans
    ((foldl_sub (fun hp a => removeCellDigit_sub hp _ _) _ _).trans
      (foldl_sub (fun hp a => removeCellDigit_sub hp _ _) _ _))))

theorem foldl_removeCell_bit (cells : List (Fin 81)) (d d' : Digit) (h : Fin 27) (p : Fin 9) : ∀ hp : HousePoss,
    (cells.foldl (fun hp c => removeCellDigit hp c d) hp)[h][d'].getLsbD p.val = true ↔
      hp[h][d'].getLsbD p.val = true ∧ ¬ (d = d' ∧ Pos.houseCellAt h p ∈ cells) := by
  induction cells with
  | nil => intro hp; simp
  | cons c cells ih =>
    intro hp
    rw [List.foldl_cons, ih, removeCellDigit_bit, List.mem_cons]
    tauto

theorem foldl_removeDigits_bit (c : Fin 81) (ds : List Digit) (d' : Digit) (h : Fin 27) (p : Fin 9) : ∀ hp : HousePoss,
    (ds.foldl (fun hp d => removeCellDigit hp c d) hp)[h][d'].getLsbD p.val = true ↔
      hp[h][d'].getLsbD p.val = true ∧ ¬ (d' ∈ ds ∧ Pos.houseCellAt h p = c) := by
  induction ds with
  | nil => intro hp; simp
  | cons d ds ih =>
    intro hp
    rw [List.foldl_cons, ih, removeCellDigit_bit, List.mem_cons]
    have : d = d' ↔ d' = d := eq_comm
    tauto

theorem foldl_removeElim_bit (l : List Candidate) (d' : Digit) (h : Fin 27) (p : Fin 9) : ∀ hp : HousePoss,
    (l.foldl (fun hp e => removeCellDigit hp e.cell e.digit) hp)[h][d'].getLsbD p.val = true ↔
      hp[h][d'].getLsbD p.val = true ∧ ∀ e ∈ l, ¬ (e.cell = Pos.houseCellAt h p ∧ e.digit = d') := by
  induction l with
  | nil => intro hp; simp
  | cons e l ih =>
    intro hp
    rw [List.foldl_cons, ih, removeCellDigit_bit, List.forall_mem_cons]
    have : Pos.houseCellAt h p = e.cell ↔ e.cell = Pos.houseCellAt h p := eq_comm
    tauto

theorem sameHouse_of_hca : ∀ (p q : Fin 9) (h : Fin 27), SameHouse (Pos.houseCellAt h q) (Pos.houseCellAt h p) := by
  decide +kernel

theorem exists_hca_row (c : Fin 81) : ∃ q, Pos.houseCellAt (Pos.rowHouse (Pos.cellRow c)) q = c := ⟨_, hca_row c⟩

theorem enterPos_bit (hp : HousePoss) (e : Candidate) (d : Digit) (h : Fin 27) (p : Fin 9) :
    (enterPos hp e)[h][d].getLsbD p.val = true ↔ hp[h][d].getLsbD p.val = true ∧
      (e.cell ≠ Pos.houseCellAt h p ∧ ¬ (e.digit = d ∧ SameHouse e.cell (Pos.houseCellAt h p))) := by
  unfold enterPos
  dsimp only
  rw [clearPos_bit, clearPos_bit, clearPos_bit, foldl_removeDigits_bit, foldl_removeCell_bit, neighbors_iff]
  have hmem : d ∈ List.finRange 9 := List.mem_finRange d
  constructor
  · rintro ⟨⟨⟨⟨⟨hb, h1⟩, h2⟩, h3⟩, h4⟩, h5⟩
    refine ⟨hb, fun hc => h2 ⟨hmem, hc.symm⟩, ?_⟩
    rintro ⟨hd, hs⟩
    exact h1 ⟨hd, fun hc => h2 ⟨hmem, hc⟩, hs⟩
  · rintro ⟨hb, h1, h2⟩
    have hno : ∀ h' : Fin 27, (∃ q, Pos.houseCellAt h' q = e.cell) → ¬ (h' = h ∧ e.digit = d) := by
      rintro h' ⟨q, hq⟩ ⟨rfl, hd⟩
      exact h2 ⟨hd, by rw [← hq]; exact sameHouse_of_hca p q h'⟩
    exact ⟨⟨⟨⟨⟨hb, fun hc => h2 ⟨hc.1, hc.2.2⟩⟩, fun hc => h1 hc.2.symm⟩, hno _ ⟨_, hca_row _⟩⟩,
      hno _ ⟨_, hca_col _⟩⟩, hno _ ⟨_, hca_block _⟩⟩


theorem foldl_enterPos_bit (l : List Candidate) (d : Digit) (h : Fin 27) (p : Fin 9) : ∀ hp : HousePoss,
    (l.foldl enterPos hp)[h][d].getLsbD p.val = true ↔ hp[h][d].getLsbD p.val = true ∧
      ∀ e ∈ l, e.cell ≠ Pos.houseCellAt h p ∧ ¬ (e.digit = d ∧ SameHouse e.cell (Pos.houseCellAt h p)) := by
  induction l with
  | nil => intro hp; simp
  | cons e l ih =>
    intro hp
    rw [List.foldl_cons, ih, enterPos_bit, List.forall_mem_cons]
    tauto

theorem mem_of_mem_take_or_drop {α : Type} {l : List α} {n m : Nat} (hm : m ≤ n) (P : α → Prop) :
    ((∀ e ∈ l.take n, P e) ∧ ∀ e ∈ l.drop m, P e) ↔ ∀ e ∈ l, P e := by
  constructor
  · rintro ⟨h1, h2⟩ e he
    rw [← List.take_append_drop n l, List.mem_append] at he
    rcases he with he | he
    · exact h1 e he
    · refine h2 e ?_
      have : l.drop n = (l.drop m).drop (n - m) := by
        rw [List.drop_drop]; congr 1; omega
      rw [this] at he
      exact List.mem_of_mem_drop he
  · intro h
    exact ⟨fun e he => h e (List.mem_of_mem_take he), fun e he => h e (List.mem_of_mem_drop he)⟩

/-- The positions are up to date. -/
def HpCurrent (s : Solver) : Prop := ∀ (h : Fin 27) (d : Digit) (p : Fin 9),
  s.hp[h][d].getLsbD p.val = true ↔ CandL s.deduced s.eliminated (Pos.houseCellAt h p) d

theorem updateHousePoss_w {k : Nat} (hk : k ≤ 1000) {s : Solver} (hw : W k s) :
    ∃ hp hpElim hpNext, s.updateHousePoss = .ok { s with hp := hp, hpElim := hpElim, hpNext := hpNext } ∧
      W k { s with hp := hp, hpElim := hpElim, hpNext := hpNext } ∧ SubP hp s.hp ∧
      HpCurrent { s with hp := hp, hpElim := hpElim, hpNext := hpNext } := by
  have h1 := hw.hpElimLe
  have h2 := hw.hpNextLe
  have h3 := hw.length_le
  refine ⟨(s.deduced.drop s.hpNext).foldl enterPos
      ((s.eliminated.drop s.hpElim).foldl (fun hp e => removeCellDigit hp e.cell e.digit) s.hp),
    s.eliminated.length % 65536, s.deduced.length % 65536, ?_, ?_⟩
  · unfold Solver.updateHousePoss
    rw [if_neg (by omega)]
    dsimp only
    rw [if_neg (by omega)]
  · have hsub : SubP ((s.deduced.drop s.hpNext).foldl enterPos
        ((s.eliminated.drop s.hpElim).foldl (fun hp e => removeCellDigit hp e.cell e.digit) s.hp)) s.hp :=
      (foldl_sub enterPos_sub _ _).trans (foldl_sub (fun hp _ => removeCellDigit_sub hp _ _) _ _)
    have hcur : ∀ (h : Fin 27) (d : Digit) (p : Fin 9),
        ((s.deduced.drop s.hpNext).foldl enterPos
          ((s.eliminated.drop s.hpElim).foldl (fun hp e => removeCellDigit hp e.cell e.digit) s.hp))[h][d].getLsbD p.val = true
          ↔ CandL s.deduced s.eliminated (Pos.houseCellAt h p) d := by
      intro h d p
      obtain ⟨n, hn1, hn2, hn3⟩ := hw.hpEx
      rw [foldl_enterPos_bit, foldl_removeElim_bit, hn3]
      unfold CandL
      rw [← mem_of_mem_take_or_drop hn1 (l := s.eliminated), ← mem_of_mem_take_or_drop (Nat.le_refl s.hpNext) (l := s.deduced)]
      tauto
    refine ⟨⟨hw.fits, hw.fitsH, fun h d i hi => hw.fitsP h d i (hsub h d i hi), hw.count, hw.next, hw.nextLe, hw.elimLe,
      Nat.mod_le _ _, Nat.mod_le _ _, hw.budget, hw.range, hw.last, hw.done, ?_⟩, hsub, hcur⟩
    refine ⟨s.eliminated.length, Nat.mod_le _ _, Nat.le_refl _, ?_⟩
    intro h d p
    refine (hcur h d p).trans ?_
    show _ ↔ CandL (s.deduced.take (s.deduced.length % 65536)) (s.eliminated.take s.eliminated.length) _ _
    rw [Nat.mod_eq_of_lt (by omega), List.take_length, List.take_length]

end Verif.Strat
