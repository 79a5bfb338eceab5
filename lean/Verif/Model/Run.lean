/-
Outcomes that keep the state of the object involved.
-/
import Verif.Model.Basic

namespace CenCalVM

/-- Outcome of a method of a stateful object: like `Outcome`, but an exception keeps the state the object and its
databases are left in. -/
inductive Run (σ α : Type) where
  | ok (s : σ) (a : α)
  | exc (msg : String) (s : σ)
  | ub

/-- Sequencing: an exception or undefined behaviour stops the caller. -/
def Run.bind {σ α β : Type} : Run σ α → (σ → α → Run σ β) → Run σ β
  | .ok s a, f => f s a
  | .exc m s, _ => .exc m s
  | .ub, _ => .ub

@[simp] theorem Run.bind_ok {σ α β : Type} (s : σ) (a : α) (f : σ → α → Run σ β) : (Run.ok s a).bind f = f s a := rfl
@[simp] theorem Run.bind_exc {σ α β : Type} (m : String) (s : σ) (f : σ → α → Run σ β) :
    (Run.exc m s : Run σ α).bind f = .exc m s := rfl
@[simp] theorem Run.bind_ub {σ α β : Type} (f : σ → α → Run σ β) : (Run.ub : Run σ α).bind f = .ub := rfl

/-- `assert(b)`. -/
def Run.assert {σ : Type} (s : σ) (b : Bool) : Run σ Unit := if b then .ok s () else .ub

end CenCalVM
