/-!
Result of running a C++ function: a value, a thrown exception, or undefined behaviour
(out-of-range access, division by zero, failed `assert`, uninitialised read).
-/
namespace Verif

/-- Outcome of a modelled C++ call. -/
inductive Outcome (α : Type u) where
  | ok (a : α)
  | throws (msg : String)
  | ub (why : String)
  deriving Repr, DecidableEq

namespace Outcome

def bind {α : Type u} {β : Type v} : Outcome α → (α → Outcome β) → Outcome β
  | ok a, f => f a
  | throws m, _ => throws m
  | ub w, _ => ub w

instance : Monad Outcome where
  pure := ok
  bind := bind

@[simp] theorem bind_ok {α : Type u} {β : Type v} (a : α) (f : α → Outcome β) :
    Outcome.bind (ok a) f = f a := rfl
@[simp] theorem bind_throws {α : Type u} {β : Type v} (m : String) (f : α → Outcome β) :
    Outcome.bind (throws m) f = throws m := rfl
@[simp] theorem bind_ub {α : Type u} {β : Type v} (m : String) (f : α → Outcome β) :
    Outcome.bind (ub m) f = ub m := rfl
@[simp] theorem pure_eq {α : Type u} (a : α) : (pure a : Outcome α) = ok a := rfl
@[simp] theorem bind_eq {α β : Type u} (x : Outcome α) (f : α → Outcome β) :
    (x >>= f) = Outcome.bind x f := rfl

/-- The call ends in a thrown exception. -/
def Throws {α : Type u} : Outcome α → Prop
  | throws _ => True
  | _ => False

/-- The call has undefined behaviour. -/
def IsUB {α : Type u} : Outcome α → Prop
  | ub _ => True
  | _ => False

instance {α : Type u} (o : Outcome α) : Decidable o.Throws :=
  match o with
  | ok _ => .isFalse (fun h => h)
  | throws _ => .isTrue trivial
  | ub _ => .isFalse (fun h => h)
instance {α : Type u} (o : Outcome α) : Decidable o.IsUB :=
  match o with
  | ok _ => .isFalse (fun h => h)
  | throws _ => .isFalse (fun h => h)
  | ub _ => .isTrue trivial

@[simp] theorem throws_throws {α : Type u} (m : String) : (throws m : Outcome α).Throws := trivial
@[simp] theorem not_throws_ok {α : Type u} (a : α) : ¬ (ok a).Throws := fun h => h
@[simp] theorem not_throws_ub {α : Type u} (m : String) : ¬ (ub m : Outcome α).Throws := fun h => h
@[simp] theorem isUB_ub {α : Type u} (m : String) : (ub m : Outcome α).IsUB := trivial
@[simp] theorem not_isUB_ok {α : Type u} (a : α) : ¬ (ok a).IsUB := fun h => h
@[simp] theorem not_isUB_throws {α : Type u} (m : String) : ¬ (throws m : Outcome α).IsUB := fun h => h

end Outcome
end Verif
