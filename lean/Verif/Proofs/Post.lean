import Verif.Model.Res

/-! Hoare-style reasoning about `Res`: no panic, no timeout, and a condition on each outcome. -/
namespace Verif

/-- `x` neither panics nor runs out of fuel; if it succeeds the value satisfies `P`,
if it returns an error then `E` holds. -/
def Res.Post {α : Type} (x : Res α) (P : α → Prop) (E : Prop) : Prop :=
  match x with
  | .ok a => P a
  | .err => E
  | .panic => False
  | .timeout => False

namespace Res
variable {α β : Type}

@[simp] theorem post_ok {a : α} {P : α → Prop} {E : Prop} : Post (ok a) P E ↔ P a := Iff.rfl
@[simp] theorem post_err {P : α → Prop} {E : Prop} : Post (err : Res α) P E ↔ E := Iff.rfl
@[simp] theorem post_panic {P : α → Prop} {E : Prop} : Post (panic : Res α) P E ↔ False := Iff.rfl
@[simp] theorem post_timeout {P : α → Prop} {E : Prop} : Post (timeout : Res α) P E ↔ False := Iff.rfl

theorem Post.mono {x : Res α} {P Q : α → Prop} {E F : Prop} (h : Post x P E)
    (hp : ∀ a, P a → Q a) (he : E → F) : Post x Q F := by
  cases x <;> simp_all [Post]

theorem Post.bind {x : Res α} {f : α → Res β} {P : α → Prop} {Q : β → Prop} {E : Prop}
    (h : Post x P E) (hf : ∀ a, P a → Post (f a) Q E) : Post (x >>= f) Q E := by
  cases x with
  | ok a => exact hf a h
  | err => exact h
  | panic => exact h
  | timeout => exact h

/-- Induction principle for a monadic fold. -/
theorem Post.foldlM {σ : Type} {f : σ → α → Res σ} {E : Prop} (I : List α → σ → Prop) :
    ∀ (l : List α) (s : σ), I l s →
      (∀ a l s, I (a :: l) s → Post (f s a) (I l) E) →
      Post (l.foldlM f s) (I []) E := by
  intro l
  induction l with
  | nil => intro s h _; exact h
  | cons a l ih =>
    intro s h hstep
    rw [List.foldlM_cons]
    exact (hstep a l s h).bind fun s' h' => ih s' h' hstep

end Res
end Verif
