import Verif.Proofs.Post

/-! Monad laws and `mapM` for `Res`. -/
namespace Verif

instance : LawfulMonad Res := LawfulMonad.mk'
  (id_map := by intro α x; cases x <;> rfl)
  (pure_bind := fun _ _ => rfl)
  (bind_assoc := by intro α β γ x f g; cases x <;> rfl)

namespace Res

theorem mapM_ok {α β : Type} (f : α → Res β) (g : α → β) (l : List α) (h : ∀ x ∈ l, f x = .ok (g x)) :
    l.mapM f = .ok (l.map g) := by
  induction l with
  | nil => rfl
  | cons x xs ih =>
    rw [List.mapM_cons, h x (by simp), Res.ok_bind, ih (fun y hy => h y (by simp [hy])), Res.ok_bind]
    rfl

end Res
end Verif
