/-!
# Outcome of a modelled Rust computation
-/
namespace Verif

/-- Outcome of a Rust function call in the model.
* `ok a`: returned `a` (or `Ok(a)`),
* `err`: returned `Err(Unsolvable)` (src/helper.rs line 9),
* `panic`: index out of bounds, failed assertion or `debug_assert!`, `unwrap` on `None`,
  arithmetic overflow,
* `timeout`: the model's fuel ran out (no counterpart in Rust; shown not to happen). -/
inductive Res (α : Type) where
  | ok (a : α)
  | err
  | panic
  | timeout
deriving DecidableEq, Repr

namespace Res

/-- The `?` operator and sequencing. -/
protected def bind {α β : Type} (x : Res α) (f : α → Res β) : Res β :=
  match x with
  | ok a => f a
  | err => err
  | panic => panic
  | timeout => timeout

instance : Monad Res where
  pure := ok
  bind := Res.bind

@[simp] theorem pure_eq {α} (a : α) : (pure a : Res α) = ok a := rfl
@[simp] theorem ok_bind {α β} (a : α) (f : α → Res β) : (ok a >>= f) = f a := rfl
@[simp] theorem err_bind {α β} (f : α → Res β) : ((err : Res α) >>= f) = err := rfl
@[simp] theorem panic_bind {α β} (f : α → Res β) : ((panic : Res α) >>= f) = panic := rfl
@[simp] theorem timeout_bind {α β} (f : α → Res β) : ((timeout : Res α) >>= f) = timeout := rfl

/-- `debug_assert!(b)`: panics in debug builds if `b` is false. -/
def assert (b : Bool) : Res Unit := if b then ok () else panic

@[simp] theorem assert_true : assert true = ok () := rfl

end Res
end Verif
