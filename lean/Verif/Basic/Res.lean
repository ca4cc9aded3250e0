/-!
# Outcomes of Go functions

A Go function returning `(T, error)` that may also panic is modelled as a total function into
`Res T`.  Error texts are kept only as tags (strings), they carry no semantics.
-/
namespace Verif

/-- Outcome of a Go call: normal result, returned error, or run-time panic. -/
inductive Res (α : Type u) where
  | ok (a : α)
  | err (e : String)
  | panic (m : String)
deriving Repr, DecidableEq

namespace Res

/-- Sequencing: errors and panics propagate (Go's `if err != nil { return err }`). -/
def bind {α : Type u} {β : Type v} : Res α → (α → Res β) → Res β
  | ok a, f => f a
  | err e, _ => err e
  | panic m, _ => panic m

def map {α : Type u} {β : Type v} (f : α → β) : Res α → Res β
  | ok a => ok (f a)
  | err e => err e
  | panic m => panic m

def isOk {α : Type u} : Res α → Bool
  | ok _ => true
  | _ => false

def isErr {α : Type u} : Res α → Bool
  | err _ => true
  | _ => false

def isPanic {α : Type u} : Res α → Bool
  | panic _ => true
  | _ => false

@[simp] theorem bind_ok {α : Type u} {β : Type v} (a : α) (f : α → Res β) : (ok a).bind f = f a := rfl
@[simp] theorem bind_err {α : Type u} {β : Type v} (e : String) (f : α → Res β) :
    (err e : Res α).bind f = err e := rfl
@[simp] theorem bind_panic {α : Type u} {β : Type v} (e : String) (f : α → Res β) :
    (panic e : Res α).bind f = panic e := rfl
@[simp] theorem map_ok {α : Type u} {β : Type v} (a : α) (f : α → β) : (ok a).map f = ok (f a) := rfl
@[simp] theorem map_err {α : Type u} {β : Type v} (e : String) (f : α → β) :
    (err e : Res α).map f = err e := rfl
@[simp] theorem map_panic {α : Type u} {β : Type v} (e : String) (f : α → β) :
    (panic e : Res α).map f = panic e := rfl
@[simp] theorem isOk_ok {α : Type u} (a : α) : (ok a).isOk = true := rfl
@[simp] theorem isOk_err {α : Type u} (e : String) : (err e : Res α).isOk = false := rfl
@[simp] theorem isOk_panic {α : Type u} (e : String) : (panic e : Res α).isOk = false := rfl
@[simp] theorem isErr_ok {α : Type u} (a : α) : (ok a).isErr = false := rfl
@[simp] theorem isErr_err {α : Type u} (e : String) : (err e : Res α).isErr = true := rfl
@[simp] theorem isErr_panic {α : Type u} (e : String) : (panic e : Res α).isErr = false := rfl
@[simp] theorem isPanic_ok {α : Type u} (a : α) : (ok a).isPanic = false := rfl
@[simp] theorem isPanic_err {α : Type u} (e : String) : (err e : Res α).isPanic = false := rfl
@[simp] theorem isPanic_panic {α : Type u} (e : String) : (panic e : Res α).isPanic = true := rfl

theorem bind_eq_ok {α : Type u} {β : Type v} {x : Res α} {f : α → Res β} {b : β} :
    x.bind f = ok b ↔ ∃ a, x = ok a ∧ f a = ok b := by
  cases x <;> simp [bind]

end Res
end Verif
