/-!
# Outcomes of modelled C functions

Undefined behaviour and failing assertions are kept as distinct outcomes.
-/
namespace Satyr

/-- Outcome of a C function: a value, a failed `assert` (abort), or undefined behaviour. -/
inductive Out (α : Type _) where
  | ok (a : α)
  | abort
  | ub
  deriving Repr, DecidableEq

namespace Out

/-- Sequencing of C statements: an abort or UB ends the execution. -/
@[inline] def bind {α β} (x : Out α) (f : α → Out β) : Out β :=
  match x with
  | ok a => f a
  | abort => abort
  | ub => ub

instance : Monad Out where
  pure := ok
  bind := bind

@[simp] theorem bind_ok {α β : Type _} (a : α) (f : α → Out β) : (Out.ok a >>= f) = f a := rfl
@[simp] theorem bind_abort {α β : Type _} (f : α → Out β) : (Out.abort >>= f) = Out.abort := rfl
@[simp] theorem bind_ub {α β : Type _} (f : α → Out β) : (Out.ub >>= f) = Out.ub := rfl
@[simp] theorem pure_eq {α : Type _} (a : α) : (pure a : Out α) = Out.ok a := rfl

instance : LawfulMonad Out := LawfulMonad.mk'
  (id_map := by intro α x; cases x <;> rfl)
  (pure_bind := by intros; rfl)
  (bind_assoc := by intro α β γ x f g; cases x <;> rfl)

end Out
end Satyr
