import Verif.Model.Py
namespace CalCore

@[simp] theorem ok_bind {α β : Type} (a : α) (f : α → Res β) :
    ((Except.ok a : Res α) >>= f) = f a := rfl

@[simp] theorem error_bind {α β : Type} (e : Fault) (f : α → Res β) :
    ((Except.error e : Res α) >>= f) = Except.error e := rfl

@[simp] theorem raise_bind {α β : Type} (e : PyErr) (f : α → Res β) :
    ((raise e : Res α) >>= f) = raise e := rfl

theorem bind_ok {α β : Type} {x : Res α} {f : α → Res β} {b : β} :
    (x >>= f) = Except.ok b ↔ ∃ a, x = Except.ok a ∧ f a = Except.ok b := by
  cases x with
  | error e => simp
  | ok a => simp

theorem bind_error {α β : Type} {x : Res α} {f : α → Res β} {e : Fault} :
    (x >>= f) = Except.error e ↔ x = Except.error e ∨ ∃ a, x = Except.ok a ∧ f a = Except.error e := by
  cases x with
  | error e' => simp
  | ok a => simp

theorem raise_ne_ok {α : Type} (e : PyErr) (a : α) : (raise e : Res α) ≠ Except.ok a := by
  intro h; cases h

@[simp] theorem raise_eq_ok {α : Type} (e : PyErr) (a : α) : (raise e : Res α) = Except.ok a ↔ False := by
  constructor
  · intro h; cases h
  · intro h; cases h

end CalCore
