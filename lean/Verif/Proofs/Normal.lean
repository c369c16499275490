import Verif.Proofs.Transform
import Verif.Proofs.LexNum

/-!
# The lexicographically smallest board of a class has a normal form
-/
namespace Verif

open Canon

theorem Solved.rc_range {g : Grid} (h : Solved g) (r c : Fin 9) : 1 ≤ cellRC g r c ∧ cellRC g r c ≤ 9 :=
  ((solved_iff_rc g).mp h).1 r c

theorem Solved.toNat_range {g : Grid} (h : Solved g) (r c : Fin 9) :
    1 ≤ (cellRC g r c).toNat ∧ (cellRC g r c).toNat ≤ 9 := by
  have := h.rc_range r c
  rw [UInt8.le_iff_toNat_le, UInt8.le_iff_toNat_le] at this
  exact this

theorem Solved.row_inj {g : Grid} (h : Solved g) {r c c' : Fin 9} (e : cellRC g r c = cellRC g r c') : c = c' := by
  by_contra hne
  exact ((solved_iff_rc g).mp h).2 r c r c' (Or.inr hne) (Or.inl rfl) e

theorem Solved.col_inj {g : Grid} (h : Solved g) {r r' c : Fin 9} (e : cellRC g r c = cellRC g r' c) : r = r' := by
  by_contra hne
  exact ((solved_iff_rc g).mp h).2 r c r' c (Or.inl hne) (Or.inr (Or.inl rfl)) e

theorem Solved.box_ne {g : Grid} (h : Solved g) {r c r' c' : Fin 9} (hne : r ≠ r')
    (hr : r.val / 3 = r'.val / 3) (hc : c.val / 3 = c'.val / 3) : cellRC g r c ≠ cellRC g r' c' :=
  ((solved_iff_rc g).mp h).2 r c r' c' (Or.inl hne) (Or.inr (Or.inr ⟨hr, hc⟩))

/-- A row of nine different digits can be relabelled to `1..9`. -/
theorem exists_relabel (f : Fin 9 → UInt8) (hf : Function.Injective f) (hr : ∀ c, 1 ≤ f c ∧ f c ≤ 9) :
    ∃ δ : Equiv.Perm (Fin 9), ∀ c : Fin 9, relabel δ (f c) = UInt8.ofNat (c.val + 1) := by
  have hr' : ∀ c, 1 ≤ (f c).toNat ∧ (f c).toNat ≤ 9 := fun c => by
    have := hr c
    rw [UInt8.le_iff_toNat_le, UInt8.le_iff_toNat_le] at this
    exact this
  let e : Fin 9 → Fin 9 := fun c => ⟨(f c).toNat - 1, by have := hr' c; omega⟩
  have he : Function.Injective e := by
    intro c c' h
    have := congrArg Fin.val h
    simp only [e] at this
    apply hf
    apply UInt8.toNat_inj.mp
    have h1 := hr' c
    have h2 := hr' c'
    omega
  let p : Equiv.Perm (Fin 9) := Equiv.ofBijective e (Finite.injective_iff_bijective.mp he)
  refine ⟨p⁻¹, fun c => ?_⟩
  have h1 : f c = UInt8.ofNat ((p c).val + 1) := by
    apply UInt8.toNat_inj.mp
    rw [UInt8.toNat_ofNat']
    have := hr' c
    show _ = ((f c).toNat - 1 + 1) % 2 ^ 8
    omega
  rw [h1, relabel_of_mem]
  simp

theorem relabel_unique {δ δ' : Equiv.Perm (Fin 9)} (f : Fin 9 → UInt8) (hf : Function.Injective f)
    (hr : ∀ c, 1 ≤ f c ∧ f c ≤ 9)
    (h : ∀ c : Fin 9, relabel δ (f c) = relabel δ' (f c)) : δ = δ' := by
  obtain ⟨ε, hε⟩ := exists_relabel f hf hr
  have key : ∀ c : Fin 9, f c = UInt8.ofNat ((ε⁻¹ c).val + 1) := by
    intro c
    rw [← relabel_of_mem, ← hε c, relabel_relabel]
    simp [relabel_one]
  ext d
  have := h (ε d)
  rw [key, relabel_of_mem, relabel_of_mem] at this
  have := congrArg UInt8.toNat this
  rw [UInt8.toNat_ofNat', UInt8.toNat_ofNat'] at this
  have e : ε⁻¹ (ε d) = d := by simp
  rw [e] at this
  omega

theorem lexLt_of_rc {g h : Grid} (r c : Fin 9)
    (hpre : ∀ r' c' : Fin 9, (r' < r ∨ (r' = r ∧ c' < c)) → cellRC g r' c' = cellRC h r' c')
    (hlt : cellRC g r c < cellRC h r c) : LexLt g h := by
  refine ⟨⟨9 * r.val + c.val, by omega⟩, ?_, hlt⟩
  intro j hj
  rw [cellRC_fin g j, cellRC_fin h j]
  apply hpre
  have : j.val < 9 * r.val + c.val := hj
  simp only [Fin.lt_def, Fin.ext_iff]
  omega

/-- The normal form. -/
structure Normal (G : Grid) : Prop where
  first : ∀ c : Fin 9, cellRC G 0 c = UInt8.ofNat (c.val + 1)
  four : cellRC G 1 0 = 4
  five : cellRC G 1 1 = 5
  s34 : cellRC G 3 0 < cellRC G 4 0
  s45 : cellRC G 4 0 < cellRC G 5 0
  s67 : cellRC G 6 0 < cellRC G 7 0
  s78 : cellRC G 7 0 < cellRC G 8 0
  s36 : cellRC G 3 0 < cellRC G 6 0

theorem toNat_ofNat_fin (c : Fin 9) : (UInt8.ofNat (c.val + 1)).toNat = c.val + 1 := by
  rw [UInt8.toNat_ofNat']; omega

/-- No transformation makes `G` smaller. -/
def Minimal (G : Grid) : Prop := ∀ T : Sym, gnum G ≤ gnum (act T G)

theorem Minimal.not_lt {G : Grid} (h : Minimal G) (T : Sym) : ¬ LexLt (act T G) G := by
  intro hc
  have h1 := hc.gnum
  have h2 := h T
  omega

theorem Minimal.first {G : Grid} (hs : Solved G) (h : Minimal G) (c : Fin 9) :
    cellRC G 0 c = UInt8.ofNat (c.val + 1) := by
  obtain ⟨δ, hδ⟩ := exists_relabel (fun c => cellRC G 0 c) (fun c c' e => hs.row_inj e) (fun c => hs.rc_range 0 c)
  let T : Sym := ⟨false, 1, 1, δ, KeepsChutes.one, KeepsChutes.one⟩
  have hT : ∀ c, cellRC (act T G) 0 c = UInt8.ofNat (c.val + 1) := by
    intro c
    rw [act_rc]
    exact hδ c
  by_contra hne
  have hex : ∃ n : Nat, ∃ hn : n < 9, cellRC G 0 ⟨n, hn⟩ ≠ UInt8.ofNat (n + 1) := ⟨c.val, c.isLt, hne⟩
  classical
  obtain ⟨hn, hd⟩ := Nat.find_spec hex
  have hpre : ∀ c : Fin 9, c.val < Nat.find hex → cellRC G 0 c = UInt8.ofNat (c.val + 1) := by
    intro c hc
    by_contra hcc
    exact Nat.find_min hex hc ⟨c.isLt, hcc⟩
  apply h.not_lt T
  apply lexLt_of_rc 0 ⟨_, hn⟩
  · intro r' c' hrc
    rcases hrc with h1 | ⟨rfl, h1⟩
    · exact absurd h1 (by simp)
    · rw [hT, hpre c' h1]
  · rw [hT, UInt8.lt_iff_toNat_lt, toNat_ofNat_fin]
    simp only
    have hr := hs.toNat_range 0 ⟨Nat.find hex, hn⟩
    by_contra hcon
    have hle : (cellRC G 0 ⟨Nat.find hex, hn⟩).toNat - 1 < Nat.find hex := by
      rcases Nat.lt_or_eq_of_le (Nat.not_lt.mp hcon) with h1 | h1
      · omega
      · exfalso
        apply hd
        apply UInt8.toNat_inj.mp
        rw [h1, UInt8.toNat_ofNat']
        omega
    have h2 := hpre ⟨(cellRC G 0 ⟨Nat.find hex, hn⟩).toNat - 1, by omega⟩ hle
    have h3 : cellRC G 0 ⟨(cellRC G 0 ⟨Nat.find hex, hn⟩).toNat - 1, by omega⟩ = cellRC G 0 ⟨Nat.find hex, hn⟩ := by
      rw [h2]
      apply UInt8.toNat_inj.mp
      rw [UInt8.toNat_ofNat']
      simp only
      omega
    have h4 := congrArg Fin.val (hs.row_inj h3)
    simp only at h4
    omega

theorem exists_perm3 : ∀ i j : Fin 3, i ≠ j → ∃ p : Equiv.Perm (Fin 3), p 0 = i ∧ p 1 = j := by
  intro i j hij
  have : ∀ i j : Fin 3, i ≠ j → ∃ a : Fin 3, ∃ b : Fin 2, perm3 a b 0 = i ∧ perm3 a b 1 = j := by decide +kernel
  obtain ⟨a, b, h⟩ := this i j hij
  exact ⟨perm3 a b, h⟩

theorem pigeon (a : Fin 3 → Nat) (ha : ∀ i, 3 ≤ a i ∧ a i < 9) : ∃ i j : Fin 3, i ≠ j ∧ a i / 3 = a j / 3 := by
  have h0 := ha 0
  have h1 := ha 1
  have h2 := ha 2
  by_cases h : a 0 / 3 = a 1 / 3
  · exact ⟨0, 1, by decide, h⟩
  · by_cases h' : a 0 / 3 = a 2 / 3
    · exact ⟨0, 2, by decide, h'⟩
    · exact ⟨1, 2, by decide, by omega⟩

theorem Minimal.fourfive {G : Grid} (hs : Solved G) (h : Minimal G) : cellRC G 1 0 = 4 ∧ cellRC G 1 1 = 5 := by
  have h1 := h.first hs
  -- the first three cells of the second row hold digits 4..9
  have hrange : ∀ i : Fin 3, 3 ≤ (cellRC G 1 ⟨i.val, by omega⟩).toNat - 1 ∧
      (cellRC G 1 ⟨i.val, by omega⟩).toNat - 1 < 9 ∧ 1 ≤ (cellRC G 1 ⟨i.val, by omega⟩).toNat := by
    intro i
    have hr := hs.toNat_range 1 ⟨i.val, by omega⟩
    refine ⟨?_, by omega, by omega⟩
    by_contra hcon
    have hne := hs.box_ne (r := 1) (c := ⟨i.val, by omega⟩) (r' := 0)
      (c' := ⟨(cellRC G 1 ⟨i.val, by omega⟩).toNat - 1, by omega⟩) (by decide) (by decide)
      (by simp only; omega)
    apply hne
    rw [h1]
    apply UInt8.toNat_inj.mp
    rw [UInt8.toNat_ofNat']
    simp only
    omega
  obtain ⟨i, j, hij, hbox⟩ := pigeon (fun i => (cellRC G 1 ⟨i.val, by omega⟩).toNat - 1)
    (fun i => ⟨(hrange i).1, (hrange i).2.1⟩)
  have hi := hrange i
  have hj := hrange j
  have hab : (cellRC G 1 ⟨i.val, by omega⟩).toNat ≠ (cellRC G 1 ⟨j.val, by omega⟩).toNat := by
    intro e
    have := hs.row_inj (UInt8.toNat_inj.mp e)
    simp only [Fin.mk.injEq] at this
    exact hij (Fin.ext this)
  generalize hA : (cellRC G 1 ⟨i.val, by omega⟩).toNat - 1 = A at *
  generalize hB : (cellRC G 1 ⟨j.val, by omega⟩).toNat - 1 = B at *
  obtain ⟨γ, hγ0, hγ1⟩ := exists_perm3 0 ⟨A / 3, by omega⟩ (by
    intro e; have := congrArg Fin.val e; simp only at this; have : (0 : Fin 3).val = 0 := rfl; omega)
  obtain ⟨κ0, h00, h01⟩ := exists_perm3 i j hij
  obtain ⟨κ1, h10, h11⟩ := exists_perm3 ⟨A % 3, by omega⟩ ⟨B % 3, by omega⟩ (by
    intro e; have := congrArg Fin.val e; simp only at this; omega)
  let κ : Fin 3 → Equiv.Perm (Fin 3) := fun b => if b = 0 then κ0 else κ1
  let C := lines γ κ
  have e0 : C 0 = ⟨i.val, by omega⟩ := by
    apply Fin.ext
    have := lines_apply γ κ 0 0
    rw [hγ0] at this
    simp only [κ, if_true, h00] at this
    exact this.trans (by simp)
  have e1 : C 1 = ⟨j.val, by omega⟩ := by
    apply Fin.ext
    have := lines_apply γ κ 0 1
    rw [hγ0] at this
    simp only [κ, if_true, h01] at this
    exact this.trans (by simp)
  have e3 : C 3 = ⟨A, by omega⟩ := by
    apply Fin.ext
    have := lines_apply γ κ 1 0
    rw [hγ1] at this
    have hk : κ 1 = κ1 := rfl
    rw [hk, h10] at this
    exact this.trans (by simp only; omega)
  have e4 : C 4 = ⟨B, by omega⟩ := by
    apply Fin.ext
    have := lines_apply γ κ 1 1
    rw [hγ1] at this
    have hk : κ 1 = κ1 := rfl
    rw [hk, h11] at this
    exact this.trans (by simp only; omega)
  obtain ⟨δ, hδ⟩ := exists_relabel (fun c => cellRC G 0 (C c)) (fun c c' e => C.injective (hs.row_inj e))
    (fun c => hs.rc_range 0 _)
  let T : Sym := ⟨false, 1, C, δ, KeepsChutes.one, lines_keeps _ _⟩
  have hT : ∀ r c, cellRC (act T G) r c = relabel δ (cellRC G r (C c)) := by
    intro r c
    rw [act_rc]
    rfl
  have t0 : ∀ c, cellRC (act T G) 0 c = cellRC G 0 c := by
    intro c
    rw [hT, hδ, h1]
  have tA : cellRC G 1 ⟨i.val, by omega⟩ = cellRC G 0 ⟨A, by omega⟩ := by
    rw [h1]
    apply UInt8.toNat_inj.mp
    rw [UInt8.toNat_ofNat']
    simp only
    omega
  have tB : cellRC G 1 ⟨j.val, by omega⟩ = cellRC G 0 ⟨B, by omega⟩ := by
    rw [h1]
    apply UInt8.toNat_inj.mp
    rw [UInt8.toNat_ofNat']
    simp only
    omega
  have t10 : cellRC (act T G) 1 0 = 4 := by
    rw [hT, e0, tA, ← e3, hδ]
    rfl
  have t11 : cellRC (act T G) 1 1 = 5 := by
    rw [hT, e1, tB, ← e4, hδ]
    rfl
  have hn := h.not_lt T
  have r0 := hrange 0
  have r1 := hrange 1
  have q0 : cellRC G 1 0 = 4 := by
    by_contra hc
    apply hn
    apply lexLt_of_rc 1 0
    · intro r' c' hrc
      have : r' = 0 := by
        rcases hrc with h' | ⟨_, h'⟩
        · apply Fin.ext
          have h' : r'.val < 1 := h'
          show r'.val = 0
          omega
        · exact absurd h' (by simp)
      subst this
      exact t0 c'
    · rw [t10, UInt8.lt_iff_toNat_lt]
      have h4 : (cellRC G 1 0).toNat ≠ 4 := fun e => hc (UInt8.toNat_inj.mp e)
      have e4 : (4 : UInt8).toNat = 4 := rfl
      have r0' : 3 ≤ (cellRC G 1 0).toNat - 1 := r0.1
      omega
  refine ⟨q0, ?_⟩
  by_contra hc
  apply hn
  apply lexLt_of_rc 1 1
  · intro r' c' hrc
    rcases hrc with h' | ⟨rfl, h'⟩
    · have : r' = 0 := by
        apply Fin.ext
        have h' : r'.val < 1 := h'
        show r'.val = 0
        omega
      subst this
      exact t0 c'
    · have : c' = 0 := by
        apply Fin.ext
        have h' : c'.val < 1 := h'
        show c'.val = 0
        omega
      subst this
      rw [t10, q0]
  · rw [t11, UInt8.lt_iff_toNat_lt]
    have h5 : (cellRC G 1 1).toNat ≠ 5 := fun e => hc (UInt8.toNat_inj.mp e)
    have h4 : (cellRC G 1 1).toNat ≠ 4 := by
      intro e
      have : cellRC G 1 1 = cellRC G 1 0 := by rw [q0]; exact UInt8.toNat_inj.mp e
      exact absurd (hs.row_inj this) (by decide)
    have e5 : (5 : UInt8).toNat = 5 := rfl
    have r1' : 3 ≤ (cellRC G 1 1).toNat - 1 := r1.1
    omega

theorem Minimal.rows {G : Grid} (hs : Solved G) (h : Minimal G) (p : Equiv.Perm (Fin 9)) (hp : KeepsChutes p)
    (k : Fin 9) (hk : p k ≠ k) (hpre : ∀ r, r < k → p r = r) : cellRC G k 0 < cellRC G (p k) 0 := by
  let T : Sym := ⟨false, p, 1, 1, hp, KeepsChutes.one⟩
  have hT : ∀ r c, cellRC (act T G) r c = cellRC G (p r) c := by
    intro r c
    rw [act_rc]
    exact relabel_one _
  by_contra hcon
  apply h.not_lt T
  apply lexLt_of_rc k 0
  · intro r' c' hrc
    rcases hrc with h' | ⟨_, h'⟩
    · rw [hT, hpre r' h']
    · exact absurd h' (by simp)
  · rw [hT]
    have hne : (cellRC G (p k) 0).toNat ≠ (cellRC G k 0).toNat :=
      fun e => hk (hs.col_inj (UInt8.toNat_inj.mp e))
    rw [UInt8.lt_iff_toNat_lt] at hcon ⊢
    omega

theorem Minimal.normal {G : Grid} (hs : Solved G) (h : Minimal G) : Normal G := by
  have h45 := h.fourfive hs
  refine ⟨h.first hs, h45.1, h45.2, ?_, ?_, ?_, ?_, ?_⟩
  · exact h.rows hs (Equiv.swap 3 4) (by unfold KeepsChutes; decide +kernel) 3 (by decide) (by decide +kernel)
  · exact h.rows hs (Equiv.swap 4 5) (by unfold KeepsChutes; decide +kernel) 4 (by decide) (by decide +kernel)
  · exact h.rows hs (Equiv.swap 6 7) (by unfold KeepsChutes; decide +kernel) 6 (by decide) (by decide +kernel)
  · exact h.rows hs (Equiv.swap 7 8) (by unfold KeepsChutes; decide +kernel) 7 (by decide) (by decide +kernel)
  · exact h.rows hs (lines (Equiv.swap 1 2) (fun _ => 1)) (lines_keeps _ _) 3 (by decide +kernel) (by decide +kernel)

/-- Sorted arrangements of the rows of the lower two bands are unique. -/
theorem sorted_unique (w : Fin 9 → Nat) (β : Equiv.Perm (Fin 3)) (π : Fin 3 → Equiv.Perm (Fin 3))
    (hβ : β 0 = 0) (hπ : π 0 = 1)
    (a1 : w 3 < w 4) (a2 : w 4 < w 5) (a3 : w 6 < w 7) (a4 : w 7 < w 8) (a5 : w 3 < w 6)
    (b1 : w (lines β π 3) < w (lines β π 4)) (b2 : w (lines β π 4) < w (lines β π 5))
    (b3 : w (lines β π 6) < w (lines β π 7)) (b4 : w (lines β π 7) < w (lines β π 8))
    (b5 : w (lines β π 3) < w (lines β π 6)) : lines β π = 1 := by
  have key : ∀ (b : Fin 3 × Fin 2) (p q : Fin 3 × Fin 2),
      perm3 b.1 b.2 0 = 0 →
      let L := lines (perm3 b.1 b.2) (fun k => if k = 0 then 1 else if k = 1 then perm3 p.1 p.2 else perm3 q.1 q.2)
      L = 1 ∨
      -- otherwise one of the orderings is violated
      (L 4 < L 3 ∧ 3 ≤ (L 4).val ∧ (L 3).val / 3 = (L 4).val / 3) ∨
      (L 5 < L 4 ∧ 3 ≤ (L 5).val ∧ (L 5).val / 3 = (L 4).val / 3) ∨
      (L 7 < L 6 ∧ 3 ≤ (L 7).val ∧ (L 6).val / 3 = (L 7).val / 3) ∨
      (L 8 < L 7 ∧ 3 ≤ (L 8).val ∧ (L 8).val / 3 = (L 7).val / 3) ∨
      (L 3 = 6 ∧ L 6 = 3) := by decide +kernel
  obtain ⟨b, hb⟩ := perm3_bijective.2 β
  obtain ⟨p, hp⟩ := perm3_bijective.2 (π 1)
  obtain ⟨q, hq⟩ := perm3_bijective.2 (π 2)
  simp only at hb hp hq
  have hπe : π = fun k => if k = 0 then 1 else if k = 1 then perm3 p.1 p.2 else perm3 q.1 q.2 := by
    funext k
    match k with
    | 0 => exact hπ
    | 1 => exact hp.symm
    | 2 => exact hq.symm
  have := key b p q (by rw [hb]; exact hβ)
  simp only at this
  rw [hb, ← hπe] at this
  have mono : ∀ x y : Fin 9, x < y → 3 ≤ x.val → y.val / 3 = x.val / 3 → w x < w y := by
    intro x y hxy hx hd
    have hxy : x.val < y.val := hxy
    have hy := y.isLt
    have cases : (x = 3 ∧ y = 4) ∨ (x = 3 ∧ y = 5) ∨ (x = 4 ∧ y = 5) ∨ (x = 6 ∧ y = 7) ∨ (x = 6 ∧ y = 8) ∨
        (x = 7 ∧ y = 8) := by
      simp only [Fin.ext_iff, Fin.isValue]
      have e3 : (3 : Fin 9).val = 3 := rfl
      have e4 : (4 : Fin 9).val = 4 := rfl
      have e5 : (5 : Fin 9).val = 5 := rfl
      have e6 : (6 : Fin 9).val = 6 := rfl
      have e7 : (7 : Fin 9).val = 7 := rfl
      have e8 : (8 : Fin 9).val = 8 := rfl
      omega
    rcases cases with ⟨rfl, rfl⟩ | ⟨rfl, rfl⟩ | ⟨rfl, rfl⟩ | ⟨rfl, rfl⟩ | ⟨rfl, rfl⟩ | ⟨rfl, rfl⟩ <;> omega
  rcases this with h | ⟨h, h', h''⟩ | ⟨h, h', h''⟩ | ⟨h, h', h''⟩ | ⟨h, h', h''⟩ | ⟨h, h'⟩
  · exact h
  · have := mono _ _ h h' h''; omega
  · have := mono _ _ h h' h''.symm; omega
  · have := mono _ _ h h' h''; omega
  · have := mono _ _ h h' h''.symm; omega
  · rw [h, h'] at b5; omega

end Verif
