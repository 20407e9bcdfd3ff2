/-
Facts about the outcome type.
-/
import Verif.Model.Basic

namespace Nmea
namespace Out
variable {ε α β : Type}

@[simp] theorem ok_bind (a : α) (f : α → Out ε β) : ((Out.ok a : Out ε α) >>= f) = f a := rfl
@[simp] theorem err_bind (e : ε) (f : α → Out ε β) : ((Out.err e : Out ε α) >>= f) = .err e := rfl
@[simp] theorem panic_bind (f : α → Out ε β) : ((Out.panic : Out ε α) >>= f) = .panic := rfl

theorem bind_eq_ok (x : Out ε α) (f : α → Out ε β) (b : β) :
    (x >>= f) = .ok b ↔ ∃ a, x = .ok a ∧ f a = .ok b := by
  cases x <;> simp

theorem bind_eq_err (x : Out ε α) (f : α → Out ε β) (e : ε) :
    (x >>= f) = .err e ↔ x = .err e ∨ ∃ a, x = .ok a ∧ f a = .err e := by
  cases x <;> simp

theorem bind_eq_panic (x : Out ε α) (f : α → Out ε β) :
    (x >>= f) = .panic ↔ x = .panic ∨ ∃ a, x = .ok a ∧ f a = .panic := by
  cases x <;> simp

theorem toOpt_eq_ok {ε' : Type} (x : Out ε α) (o : Option α) :
    (x.toOpt : Out ε' (Option α)) = .ok o ↔
      (∃ a, x = .ok a ∧ o = some a) ∨ ((∃ e, x = .err e) ∧ o = none) := by
  cases x <;> simp [toOpt, eq_comm]

@[simp] theorem toOpt_ne_err {ε' : Type} (x : Out ε α) (e : ε') :
    (x.toOpt : Out ε' (Option α)) ≠ .err e := by
  cases x <;> simp [toOpt]

theorem toOpt_eq_panic {ε' : Type} (x : Out ε α) :
    (x.toOpt : Out ε' (Option α)) = .panic ↔ x = .panic := by
  cases x <;> simp [toOpt]

end Out

@[simp] theorem liftErr_ok {α : Type} (x : Out Str α) (a : α) : liftErr x = .ok a ↔ x = .ok a := by
  cases x <;> simp [liftErr]
theorem liftErr_err {α : Type} (x : Out Str α) (e : ParseError) :
    liftErr x = .err e ↔ ∃ m, x = .err m ∧ e = .invalidSentence m := by
  cases x <;> simp [liftErr, eq_comm]
@[simp] theorem liftErr_panic {α : Type} (x : Out Str α) : liftErr x = .panic ↔ x = .panic := by
  cases x <;> simp [liftErr]

end Nmea
