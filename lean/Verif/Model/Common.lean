/-!
Common vocabulary of the model: outcomes of a C call, C strings.
-/
namespace Elliptica

/-- Outcome of a call.  `abort` = the program stops with an error message (`Error0`, `Errors`,
`assert`, cf. Src/Main/Modules/Error_Handlings/error_handlings.c and
Src/Main/Modules/Includes/error_handling_lib.h); `ub` = undefined behaviour in C
(null dereference, out-of-bounds access, pointer arithmetic on a null pointer, ...). -/
inductive Res (α : Type u) where
  | ok (a : α)
  | abort
  | ub
deriving Repr, DecidableEq

namespace Res

/-- sequencing: the first abort or undefined behaviour ends the computation -/
def bind {α : Type u} {β : Type v} (r : Res α) (f : α → Res β) : Res β :=
  match r with
  | ok a => f a
  | abort => abort
  | ub => ub

def map {α : Type u} {β : Type v} (f : α → β) (r : Res α) : Res β :=
  match r with
  | ok a => ok (f a)
  | abort => abort
  | ub => ub

instance : Monad Res where
  pure := Res.ok
  bind := Res.bind

@[simp] theorem bind_ok {α : Type u} {β : Type v} (a : α) (f : α → Res β) :
    (Res.ok a).bind f = f a := rfl
@[simp] theorem bind_abort {α : Type u} {β : Type v} (f : α → Res β) :
    (Res.abort : Res α).bind f = .abort := rfl
@[simp] theorem bind_ub {α : Type u} {β : Type v} (f : α → Res β) :
    (Res.ub : Res α).bind f = .ub := rfl
@[simp] theorem pure_eq {α : Type u} (a : α) : (pure a : Res α) = .ok a := rfl
@[simp] theorem bind_eq {α β : Type u} (r : Res α) (f : α → Res β) : (r >>= f) = r.bind f := rfl
@[simp] theorem map_ok {α : Type u} {β : Type v} (f : α → β) (a : α) :
    (Res.ok a).map f = .ok (f a) := rfl

end Res

/-- a C string, without its terminating NUL (assumption: no NUL inside) -/
abbrev Str := List Char

end Elliptica
