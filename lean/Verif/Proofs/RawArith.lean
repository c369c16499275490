import Verif.Model.RawPositions
import Verif.Proofs.ResMonad

/-! # Machine integers: when the operations do not overflow, and simulation of computations with natural numbers -/
namespace Verif.Raw

open Verif

theorem add_ok {debug : Bool} {a b : UInt8} (h : a.toNat + b.toNat < 256) : add debug a b = .ok (a + b) := by
  unfold add
  rw [decide_eq_true h, Bool.or_true]
  rfl

theorem toNat_add {a b : UInt8} (h : a.toNat + b.toNat < 256) : (a + b).toNat = a.toNat + b.toNat := by
  rw [UInt8.toNat_add]
  exact Nat.mod_eq_of_lt h

theorem mul_ok {debug : Bool} {a b : UInt8} (h : a.toNat * b.toNat < 256) : mul debug a b = .ok (a * b) := by
  unfold mul
  rw [decide_eq_true h, Bool.or_true]
  rfl

theorem toNat_mul {a b : UInt8} (h : a.toNat * b.toNat < 256) : (a * b).toNat = a.toNat * b.toNat := by
  rw [UInt8.toNat_mul]
  exact Nat.mod_eq_of_lt h

/-- If the first computation succeeds, so does the second, with a related result. -/
def Sim {A B : Type} (R : A → B → Prop) (x : Res A) (y : Res B) : Prop := ∀ a, x = .ok a → ∃ b, y = .ok b ∧ R a b

namespace Sim

variable {A B A' B' : Type} {R : A → B → Prop} {S : A' → B' → Prop}

theorem ok {a : A} {b : B} (h : R a b) : Sim R (.ok a) (.ok b) := by
  intro a' he
  cases he
  exact ⟨b, rfl, h⟩

theorem panic {y : Res B} : Sim R .panic y := fun _ h => by cases h

theorem refl (x : Res A) : Sim Eq x x := fun a h => ⟨a, h, rfl⟩

theorem bind {x : Res A} {y : Res B} {f : A → Res A'} {g : B → Res B'} (h : Sim R x y)
    (hf : ∀ a b, R a b → Sim S (f a) (g b)) : Sim S (x >>= f) (y >>= g) := by
  cases x with
  | ok a =>
    obtain ⟨b, e, hr⟩ := h a rfl
    rw [e]
    exact hf a b hr
  | err => intro _ h; cases h
  | panic => intro _ h; cases h
  | timeout => intro _ h; cases h

/-- The same computation first. -/
theorem bindEq {x : Res A} {f : A → Res A'} {g : A → Res B'} (hf : ∀ a, Sim S (f a) (g a)) : Sim S (x >>= f) (x >>= g) :=
  (refl x).bind fun a b e => by rw [← e]; exact hf a

/-- An assertion that holds in the first computation. -/
theorem assert {debug b b' : Bool} {f : Unit → Res A'} {g : Unit → Res B'} (h : b = true → b' = true)
    (hf : b = true → Sim S (f ()) (g ())) : Sim S (Res.assert b >>= f) (debugAssert debug b' >>= g) := by
  cases b with
  | false => intro _ h; cases h
  | true =>
    unfold debugAssert
    rw [h rfl, Bool.or_true]
    exact hf rfl

theorem addR {debug : Bool} {a b : UInt8} {x : Res A'} {g : UInt8 → Res B'} (h : a.toNat + b.toNat < 256)
    (hf : (a + b).toNat = a.toNat + b.toNat → Sim S x (g (a + b))) : Sim S x (add debug a b >>= g) := by
  rw [add_ok h]
  exact hf (toNat_add h)

theorem mulR {debug : Bool} {a b : UInt8} {x : Res A'} {g : UInt8 → Res B'} (h : a.toNat * b.toNat < 256)
    (hf : (a * b).toNat = a.toNat * b.toNat → Sim S x (g (a * b))) : Sim S x (mul debug a b >>= g) := by
  rw [mul_ok h]
  exact hf (toNat_mul h)

theorem foldlM {X Y : Type} {Q : X → Y → Prop} {f : A → X → Res A} {g : B → Y → Res B}
    (hf : ∀ a b x y, R a b → Q x y → Sim R (f a x) (g b y)) {l : List X} {m : List Y} (hl : List.Forall₂ Q l m) :
    ∀ a b, R a b → Sim R (l.foldlM f a) (m.foldlM g b) := by
  induction hl with
  | nil => intro a b h; exact ok h
  | cons h _ ih =>
    intro a b hr
    rw [List.foldlM_cons, List.foldlM_cons]
    exact (hf a b _ _ hr h).bind fun a b hr => ih a b hr

theorem mapM {X Y : Type} {Q : X → Y → Prop} {f : X → Res A} {g : Y → Res B}
    (hf : ∀ x y, Q x y → Sim R (f x) (g y)) {l : List X} {m : List Y} (hl : List.Forall₂ Q l m) :
    Sim (List.Forall₂ R) (l.mapM f) (m.mapM g) := by
  induction hl with
  | nil => exact ok .nil
  | cons h _ ih =>
    rw [List.mapM_cons, List.mapM_cons]
    exact (hf _ _ h).bind fun a b hr => ih.bind fun as bs hrs => ok (.cons hr hrs)

end Sim

end Verif.Raw
