import Verif.Proofs.Links
import Verif.Proofs.Confluence
import Verif.Proofs.Complement
import Verif.Spec.Examples

/-! C77: direct links between candidates. -/
namespace Verif.Props

open Verif Strat Pattern

/-- The two tables that `find_direct_links` gets are about the same candidates. -/
structure SameCandidates (cp : Vector DigitSet 81) (hp : Vector (Vector PosSet 9) 27) : Prop where
  digits : ∀ c : Fin 81, elems cp[c] ⊆ Finset.range 9
  positions : ∀ (h : Fin 27) (d : Digit), elems hp[h][d] ⊆ Finset.range 9
  same : ∀ (h : Fin 27) (d : Digit) (c : Fin 81), InHouse h c → (posIn h c ∈ elems hp[h][d] ↔ d.val ∈ elems cp[c])

theorem candidate_ext {e e' : Candidate} (h1 : e.cell = e'.cell) (h2 : e.digit = e'.digit) : e = e' := by
  cases e; cases e'
  congr

/-- **C77** (what is found).  The search does not fail.  The strong links are those in cells with two candidates and, for candidates
in other cells, those in houses with two places.  The weak links are those of candidates in cells with one candidate or at least
three: to the other candidates of the cell, and to the other places in each house with at least three places. -/
theorem C77_links (cp : Vector DigitSet 81) (hp : Vector (Vector PosSet 9) 27) (hs : SameCandidates cp hp) :
    ∃ l, findDirectLinks cp hp = .ok l ∧
      (∀ e e' : Candidate, (true, e, e') ∈ l ↔
        e.cell = e'.cell ∧ TwoInCell (fun c d => d.val ∈ elems cp[c]) e.cell e.digit e'.digit ∨
        (¬ ∃ d, TwoInCell (fun c d => d.val ∈ elems cp[c]) e.cell e.digit d) ∧ e.digit = e'.digit ∧
          ∃ h, TwoInHouse (fun c d => d.val ∈ elems cp[c]) h e.digit e.cell e'.cell) ∧
      (∀ e e' : Candidate, (false, e, e') ∈ l ↔
        Exclusive (fun c d => d.val ∈ elems cp[c]) e e' ∧
        (¬ ∃ d, TwoInCell (fun c d => d.val ∈ elems cp[c]) e.cell e.digit d) ∧
        (e.cell = e'.cell ∨ ∃ h, InHouse h e.cell ∧ InHouse h e'.cell ∧
          ¬ TwoInHouse (fun c d => d.val ∈ elems cp[c]) h e.digit e.cell e'.cell)) := by
  have hcand : (fun c (d : Digit) => d.val ∈ elems cp[c]) = Links.Cand cp := by
    funext c d
    exact propext Bitset.mem_elems
  have hsame : Links.Same cp hp := by
    refine ⟨fun c => Bitset.fits_iff.mpr (hs.digits c), fun h d => Bitset.fits_iff.mpr (hs.positions h d), fun h d p => ?_⟩
    have := hs.same h d (Pos.houseCellAt h p) (hca_inHouse h p).1
    rw [(hca_inHouse h p).2, Bitset.mem_elems, Bitset.mem_elems] at this
    exact this
  obtain ⟨l, e, hl⟩ := Links.find_spec hsame
  rw [hcand]
  refine ⟨l, e, fun e e' => ?_, fun e e' => ?_⟩
  · rw [hl]
    constructor
    · rintro ⟨hc, ⟨h1, h2, h3, h4⟩ | ⟨h1, h2, h3, h, h4, h5, h6, h7⟩⟩
      · obtain ⟨d, hne, hd⟩ := h4.mp rfl
        refine Or.inl ⟨h1.symm, fun e => h2 e.symm, ?_⟩
        rcases (hd _).mp h3 with e | e
        · exact absurd e h2
        · rw [e]; exact hd
      · obtain ⟨c, hne, hin, hin', hcc⟩ := h7.mp rfl
        refine Or.inr ⟨h1, h2.symm, h, fun e => h3 e.symm, h4, h5, ?_⟩
        rcases (hcc _ h5).mp h6 with e | e
        · exact absurd e h3
        · rw [e]; exact hcc
    · rintro (⟨h1, hne, hd⟩ | ⟨h1, h2, h, hne, hin, hin', hc⟩)
      · refine ⟨(hd _).mpr (Or.inl rfl), Or.inl ⟨h1.symm, fun e => hne e.symm, (hd _).mpr (Or.inr rfl), ?_⟩⟩
        exact ⟨fun _ => ⟨_, hne, hd⟩, fun _ => rfl⟩
      · refine ⟨(hc _ hin).mpr (Or.inl rfl), Or.inr ⟨h1, h2.symm, fun e => hne e.symm, ⟨h, inHouse_lt hin⟩, hin, hin',
          (hc _ hin').mpr (Or.inr rfl), ?_⟩⟩
        exact ⟨fun _ => ⟨_, hne, hin, hin', hc⟩, fun _ => rfl⟩
  · rw [hl]
    constructor
    · rintro ⟨hc, ⟨h1, h2, h3, h4⟩ | ⟨h1, h2, h3, h, h4, h5, h6, h7⟩⟩
      · have hno : ¬ ∃ d, TwoInCell (Links.Cand cp) e.cell e.digit d := fun h => by cases h4.mpr h
        refine ⟨⟨fun ee => h2 (by rw [ee]), hc, ?_, Or.inl h1.symm⟩, hno, Or.inl h1.symm⟩
        rw [show e'.cell = e.cell from h1]
        exact h3
      · refine ⟨⟨fun ee => h3 (by rw [ee]), hc, ?_, Or.inr ⟨h2.symm, h, h4, h5⟩⟩, h1, Or.inr ⟨h, h4, h5, fun ht => ?_⟩⟩
        · rw [show e'.digit = e.digit from h2]
          exact h6
        · cases h7.mpr ⟨_, ht⟩
    · rintro ⟨⟨hne, hc, hc', hx⟩, h1, h2⟩
      refine ⟨hc, ?_⟩
      by_cases hcell : e.cell = e'.cell
      · refine Or.inl ⟨hcell.symm, ?_, ?_, ⟨fun h => (by cases h), fun h => absurd h h1⟩⟩
        · intro hd
          exact hne (candidate_ext hcell hd.symm)
        · show Links.Cand cp e.cell e'.digit
          rw [hcell]; exact hc'
      · rcases hx with hx | ⟨hd, -⟩
        · exact absurd hx hcell
        · rcases h2 with h2 | ⟨h, hin, hin', hn⟩
          · exact absurd h2 hcell
          · refine Or.inr ⟨h1, hd.symm, fun e => hcell e.symm, ⟨h, inHouse_lt hin⟩, hin, hin', ?_, ⟨fun h => (by cases h), ?_⟩⟩
            · show Links.Cand cp e'.cell e.digit
              rw [hd]; exact hc'
            · rintro ⟨c, ht⟩
              exfalso
              apply hn
              have hc'' : Links.Cand cp e'.cell e.digit := by rw [hd]; exact hc'
              rcases (ht.2.2.2 _ hin').mp hc'' with ee | ee
              · exact absurd ee.symm hcell
              · rw [ee]; exact ht

/-- **C77** (soundness).  In a solution within the candidates, one and only one of two strongly linked candidates holds, and
not both of two weakly linked ones. -/
theorem C77_sound (cp : Vector DigitSet 81) (hp : Vector (Vector PosSet 9) 27) (hs : SameCandidates cp hp) (t : Grid)
    (ht : Solved t) (hc : ∀ (c : Fin 81) (d : Digit), t[c] = d.get → d.val ∈ elems cp[c])
    (l : List (Bool × Candidate × Candidate)) (h : findDirectLinks cp hp = .ok l) (e e' : Candidate) :
    ((true, e, e') ∈ l → (t[e.cell] = e.digit.get ↔ t[e'.cell] ≠ e'.digit.get)) ∧
    ((false, e, e') ∈ l → ¬ (t[e.cell] = e.digit.get ∧ t[e'.cell] = e'.digit.get)) := by
  obtain ⟨l', e1, h1, h2⟩ := C77_links cp hp hs
  rw [h] at e1
  cases e1
  constructor
  · intro hx
    rcases (h1 e e').mp hx with ⟨hcell, hne, hd⟩ | ⟨-, hdig, n, hne, hin, hin', hcc⟩
    · rw [← show t[e.cell] = t[e'.cell] by simp only [hcell]]
      constructor
      · intro ht1 ht2
        exact hne (Digit.get_inj (ht1.symm.trans ht2))
      · intro hn
        rcases (hd (dig t e.cell)).mp (hc _ _ (dig_spec ht _)) with hh | hh
        · rw [dig_spec ht e.cell, hh]
        · exact absurd (by rw [dig_spec ht e.cell, hh]) hn
    · rw [← hdig]
      constructor
      · intro ht1 ht2
        exact ht.2 _ _ hne (hin.same hin') (ht1.trans ht2.symm)
      · intro hn
        obtain ⟨c, hinc, hdc⟩ := place_exists ht ⟨n, inHouse_lt hin⟩ e.digit
        have htc : t[c] = e.digit.get := by rw [dig_spec ht c, hdc]
        rcases (hcc c hinc).mp (hc _ _ htc) with hh | hh
        · rw [← htc]; simp only [hh]
        · exact absurd (by rw [← htc]; simp only [hh]) hn
  · intro hx
    obtain ⟨⟨hne, -, -, hx⟩, -⟩ := (h2 e e').mp hx
    rintro ⟨ht1, ht2⟩
    by_cases hcell : e.cell = e'.cell
    · rw [← show t[e.cell] = t[e'.cell] by simp only [hcell]] at ht2
      exact hne (candidate_ext hcell (Digit.get_inj (ht1.symm.trans ht2)))
    · rcases hx with hx | ⟨hd, n, hin, hin'⟩
      · exact hcell hx
      · rw [← hd] at ht2
        exact ht.2 _ _ hcell (hin.same hin') (ht1.trans ht2.symm)

namespace LinkExample

/-- 1 and 2 in R1C1, 1, 3 and 4 in R1C2, and no other candidates. -/
def cp : Vector DigitSet 81 := ((Vector.replicate 81 0).set 0 0x3#16).set 1 0xd#16

/-- The same candidates. -/
def hp : Vector (Vector PosSet 9) 27 := Vector.ofFn (fun h => Vector.ofFn (fun d =>
  (List.finRange 9).foldl (fun a p => if cp[Pos.houseCellAt h p].getLsbD d.val then a ||| BitVec.twoPow 16 p.val else a) 0#16))

def links : List (Bool × Candidate × Candidate) :=
  match findDirectLinks cp hp with
  | .ok l => l
  | _ => []

theorem same : SameCandidates cp hp := by
  refine ⟨by decide +kernel, by decide +kernel, by decide +kernel⟩

end LinkExample

open LinkExample in
/-- **C77** (links that are not found).  The comment says that the strong and weak links in cells and houses are found, but if a cell
has two candidates, the code continues with the next candidate and finds no links in houses for it.  Here, the 1s in R1C1
and R1C2 are the only ones in the first row, but just one direction of the link is found. -/
theorem C77_both_directions_false : ∃ cp hp l, SameCandidates cp hp ∧ findDirectLinks cp hp = .ok l ∧ ∃ e e' : Candidate,
    StrongLink (fun c d => d.val ∈ elems cp[c]) e e' ∧ (true, e', e) ∈ l ∧ (true, e, e') ∉ l ∧ (false, e, e') ∉ l := by
  obtain ⟨l, e, -⟩ := C77_links cp hp same
  refine ⟨cp, hp, l, same, e, ⟨0, 0⟩, ⟨1, 0⟩, Or.inr ⟨rfl, 0, ?_⟩, ?_⟩
  · unfold TwoInHouse
    decide +kernel
  · have hl : links = l := by unfold links; rw [e]
    rw [← hl]
    decide +kernel

open LinkExample in
/-- The link in the first cell is found. -/
example : (true, (⟨0, 0⟩ : Candidate), (⟨0, 1⟩ : Candidate)) ∈ links ∧ (false, (⟨1, 0⟩ : Candidate), (⟨1, 2⟩ : Candidate)) ∈ links := by
  decide +kernel

namespace LinkExample

/-- Two cells of a solution with more than one candidate. -/
def cp2 : Vector DigitSet 81 := ((Ex.solved.map (fun v => BitVec.twoPow 16 (v.toNat - 1))).set 0 0x88#16).set 1 0x88#16

def hp2 : Vector (Vector PosSet 9) 27 := Vector.ofFn (fun h => Vector.ofFn (fun d =>
  (List.finRange 9).foldl (fun a p => if cp2[Pos.houseCellAt h p].getLsbD d.val then a ||| BitVec.twoPow 16 p.val else a) 0#16))

end LinkExample

open LinkExample in
/-- The hypotheses of `C77_sound` are met. -/
example : SameCandidates cp2 hp2 ∧ Solved Ex.solved ∧
    ∀ (c : Fin 81) (d : Digit), Ex.solved[c] = d.get → d.val ∈ elems cp2[c] := by
  refine ⟨⟨by decide +kernel, by decide +kernel, by decide +kernel⟩, by decide +kernel, by decide +kernel⟩

end Verif.Props
