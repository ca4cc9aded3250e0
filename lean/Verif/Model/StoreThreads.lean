import Verif.Model.Store

/-!
# Several goroutines using one store

Every store call does its reading and writing in one critical section of the storage mutex (store/internal/cache.go: each method
locks for its whole body) and calls the event handler after releasing it (store/cache.go:84-93, 187-189, 213-218, 229-231).
A call is therefore two kinds of steps: the critical section, and the handler calls that follow it in the same goroutine.
-/
namespace Verif.Model
open Verif

/-- The store, what each goroutine has still to deliver, and two records of the run: the critical sections in their order, and the handler
calls in their order (each with its goroutine). -/
structure Threads (R : Type) where
  cache : Cache R
  pending : Nat → List (Event R) := fun _ => []
  hist : List (Nat × Op R × Out R Unit) := []
  delivered : List (Nat × Event R) := []

/-- A step of goroutine `t`: the critical section of a call (when its previous call is finished), or a handler call. -/
inductive Threads.Step {R : Type} [Inhabited R] (ops : RecOps R) : Threads R → Threads R → Prop where
  | call {s : Threads R} (t : Nat) (op : Op R) : s.pending t = [] →
      Threads.Step ops s
        { cache := (s.cache.step ops op).1
          pending := fun u => if u = t then (s.cache.step ops op).2.events else s.pending u
          hist := s.hist ++ [(t, op, (s.cache.step ops op).2)]
          delivered := s.delivered }
  | deliver {s : Threads R} (t : Nat) {ev : Event R} {rest : List (Event R)} : s.pending t = ev :: rest →
      Threads.Step ops s
        { s with
          pending := fun u => if u = t then rest else s.pending u
          delivered := s.delivered ++ [(t, ev)] }

/-- States reachable from an empty store. -/
inductive Threads.Reach {R : Type} [Inhabited R] (ops : RecOps R) (cfg : CacheConfig R) : Threads R → Prop where
  | init : Threads.Reach ops cfg { cache := newCache ops cfg }
  | step {s s' : Threads R} : Threads.Reach ops cfg s → Threads.Step ops s s' → Threads.Reach ops cfg s'

end Verif.Model
