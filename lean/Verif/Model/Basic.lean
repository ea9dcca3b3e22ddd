/-!
# Common outcome type

The C++ code either returns, throws an exception, or (if a precondition the code relies on is violated) runs into
undefined behaviour. The model keeps the three apart.
-/
namespace SilKit

/-- Outcome of a modelled C++ function.
`ok` – returns normally, `throw` – a C++ exception leaves the function, `ub` – undefined behaviour.
(Modelling device, no counterpart in the code.) -/
inductive Res (α : Type) where
  | ok (a : α)
  | throw (msg : String)
  | ub (msg : String)
deriving Repr, DecidableEq

namespace Res

/-- Sequencing of outcomes (exceptions and undefined behaviour propagate). -/
def bind {α β : Type} (r : Res α) (f : α → Res β) : Res β :=
  match r with
  | ok a => f a
  | throw m => throw m
  | ub m => ub m

instance : Monad Res where
  pure := ok
  bind := bind

@[simp] theorem bind_ok {α β : Type} (a : α) (f : α → Res β) : (Res.ok a >>= f) = f a := rfl
@[simp] theorem bind_throw {α β : Type} (m : String) (f : α → Res β) : (Res.throw m >>= f) = .throw m := rfl
@[simp] theorem bind_ub {α β : Type} (m : String) (f : α → Res β) : (Res.ub m >>= f) = .ub m := rfl
@[simp] theorem pure_eq {α : Type} (a : α) : (pure a : Res α) = .ok a := rfl

end Res
end SilKit
