/-
Reduction lemmas for the exception monad.
-/
import Verif.Model.Np

namespace Skada

theorem ok_bind {α β : Type} (a : α) (f : α → Py β) : (Except.ok a >>= f) = f a := rfl
theorem err_bind {α β : Type} (e : PyErr) (f : α → Py β) : ((Except.error e : Py α) >>= f) = .error e := rfl
theorem pure_ok {α : Type} (a : α) : (pure a : Py α) = .ok a := rfl
theorem throw_err {α : Type} (e : PyErr) : (throw e : Py α) = .error e := rfl

end Skada
