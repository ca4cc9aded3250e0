import Verif.Basic.Res

/-!
# eventsource/client.go: `Listen` and `Close` with the steps of `sync.WaitGroup`

`Verif/Model/Client.lean` has `c.wg` as a number, and `Wait` returns when it is 0.  Here the WaitGroup is the one of Go 1.21 (sync/waitgroup.go, as remembered; it is not in `/repo`):
an atomic pair of a counter and a number of waiters, a semaphore, and the checks for misuse, which panic.  Of the client only its lock, its WaitGroup, its listeners (any number) and one call of
`Close` are modelled: a second one panics anyway (C44).
-/
namespace Verif.Model
open Verif

/-- A call of `Listen` with its goroutine (client.go:87-137). -/
inductive WlPC where
  /-- at line 88 -/
  | calling
  /-- at line 91, `wg.Add(1)` done -/
  | added
  /-- `Listen` has returned, its goroutine runs -/
  | running
  /-- the goroutine's `wg.Done()` (line 96) has changed the counter -/
  | left
deriving DecidableEq

/-- The call of `Done` that has brought the counter to 0 while somebody waits. -/
inductive WkPC where
  /-- `if wg.state.Load() != state`, with this number of waiters -/
  | checking (w : Nat)
  /-- `wg.state.Store(0)` -/
  | storing (w : Nat)
  /-- releasing the semaphore so many times -/
  | releasing (n : Nat)
deriving DecidableEq

/-- `Close` (client.go:140-147) with the steps of `Wait`. -/
inductive WcPC where
  /-- not called -/
  | open_
  /-- line 141 -/
  | locking
  /-- `state := wg.state.Load()` -/
  | loading
  /-- `CompareAndSwap(state, state+1)`, having seen this counter and these waiters -/
  | swapping (v : Int) (w : Nat)
  /-- `runtime_Semacquire` -/
  | sleeping
  /-- `if wg.state.Load() != 0` -/
  | woken
  | returned
deriving DecidableEq

inductive WgPanic where
  /-- "sync: negative WaitGroup counter" -/
  | negative
  /-- "sync: WaitGroup misuse: Add called concurrently with Wait", in Add(1) -/
  | addDuringWait
  /-- the same, in Done -/
  | changed
  /-- "sync: WaitGroup is reused before previous Wait has returned", in Wait -/
  | reused
deriving DecidableEq

structure WgCl where
  counter : Int := 0
  waiters : Nat := 0
  sema : Nat := 0
  /-- `c.lock` is held by `Close` -/
  lock : Bool := false
  ls : List WlPC := []
  waker : Option WkPC := none
  close : WcPC := .open_
  crashed : Option WgPanic := none
deriving DecidableEq

inductive WgEv where
  | listen (l : Nat)
  | add (l : Nat)
  /-- `Listen` returns -/
  | listening (l : Nat)
  | done (l : Nat)
  /-- the last Done goes on -/
  | wake
  | close
  /-- a step of `Close` -/
  | wait
  | closeReturned
  | panic (p : WgPanic)
deriving DecidableEq

/-- `Close` has been called and has not returned. -/
def WcPC.active : WcPC → Bool
  | .open_ | .returned => false
  | _ => true

/-- `overlap`: calls of `Listen` and `Close` may overlap. -/
inductive WgCl.Step (overlap : Bool) : WgCl → WgEv → WgCl → Prop where
  | listen {s : WgCl} : (overlap = false → s.close.active = false) → WgCl.Step overlap s (.listen s.ls.length) { s with ls := s.ls ++ [.calling] }
  /-- client.go:88; Add: the counter is changed, then the misuse is looked for -/
  | add {s : WgCl} {l : Nat} : s.ls[l]? = some .calling → ¬ (s.waiters ≠ 0 ∧ s.counter + 1 = 1) →
      WgCl.Step overlap s (.add l) { s with counter := s.counter + 1, ls := s.ls.set l .added }
  | addPanic {s : WgCl} {l : Nat} : s.ls[l]? = some .calling → s.waiters ≠ 0 → s.counter + 1 = 1 →
      WgCl.Step overlap s (.panic .addDuringWait) { s with counter := s.counter + 1, crashed := some .addDuringWait }
  /-- client.go:91-95, 135-136 -/
  | listening {s : WgCl} {l : Nat} : s.ls[l]? = some .added → s.lock = false → WgCl.Step overlap s (.listening l) { s with ls := s.ls.set l .running }
  /-- client.go:96; Add(-1) -/
  | doneNegative {s : WgCl} {l : Nat} : s.ls[l]? = some .running → s.counter - 1 < 0 →
      WgCl.Step overlap s (.panic .negative) { s with counter := s.counter - 1, crashed := some .negative }
  | done {s : WgCl} {l : Nat} : s.ls[l]? = some .running → 0 ≤ s.counter - 1 → (0 < s.counter - 1 ∨ s.waiters = 0) →
      WgCl.Step overlap s (.done l) { s with counter := s.counter - 1, ls := s.ls.set l .left }
  | doneLast {s : WgCl} {l : Nat} : s.ls[l]? = some .running → s.counter - 1 = 0 → s.waiters ≠ 0 →
      WgCl.Step overlap s (.done l) { s with counter := s.counter - 1, ls := s.ls.set l .left, waker := some (.checking s.waiters) }
  | check {s : WgCl} {w : Nat} : s.waker = some (.checking w) → s.counter = 0 → s.waiters = w → WgCl.Step overlap s .wake { s with waker := some (.storing w) }
  | checkPanic {s : WgCl} {w : Nat} : s.waker = some (.checking w) → ¬ (s.counter = 0 ∧ s.waiters = w) →
      WgCl.Step overlap s (.panic .changed) { s with crashed := some .changed }
  | store {s : WgCl} {w : Nat} : s.waker = some (.storing w) →
      WgCl.Step overlap s .wake { s with counter := 0, waiters := 0, waker := some (.releasing w) }
  | release {s : WgCl} {n : Nat} : s.waker = some (.releasing (n + 1)) →
      WgCl.Step overlap s .wake { s with sema := s.sema + 1, waker := if n = 0 then none else some (.releasing n) }
  /-- client.go:140 -/
  | close {s : WgCl} : s.close = .open_ → (overlap = false → WlPC.calling ∉ s.ls ∧ WlPC.added ∉ s.ls) → WgCl.Step overlap s .close { s with close := .locking }
  /-- client.go:141-145 -/
  | lock {s : WgCl} : s.close = .locking → s.lock = false → WgCl.Step overlap s .wait { s with lock := true, close := .loading }
  /-- client.go:146-147; Wait: `if v == 0 { return }` -/
  | loadZero {s : WgCl} : s.close = .loading → s.counter = 0 → WgCl.Step overlap s .closeReturned { s with lock := false, close := .returned }
  | load {s : WgCl} : s.close = .loading → s.counter ≠ 0 → WgCl.Step overlap s .wait { s with close := .swapping s.counter s.waiters }
  | swap {s : WgCl} {v : Int} {w : Nat} : s.close = .swapping v w → s.counter = v → s.waiters = w →
      WgCl.Step overlap s .wait { s with waiters := s.waiters + 1, close := .sleeping }
  | swapFail {s : WgCl} {v : Int} {w : Nat} : s.close = .swapping v w → ¬ (s.counter = v ∧ s.waiters = w) → WgCl.Step overlap s .wait { s with close := .loading }
  | sleep {s : WgCl} : s.close = .sleeping → 0 < s.sema → WgCl.Step overlap s .wait { s with sema := s.sema - 1, close := .woken }
  | woken {s : WgCl} : s.close = .woken → s.counter = 0 → s.waiters = 0 → WgCl.Step overlap s .closeReturned { s with lock := false, close := .returned }
  | wokenPanic {s : WgCl} : s.close = .woken → ¬ (s.counter = 0 ∧ s.waiters = 0) → WgCl.Step overlap s (.panic .reused) { s with crashed := some .reused }

inductive WgCl.Run (overlap : Bool) : WgCl → List WgEv → WgCl → Prop where
  | nil {s : WgCl} : WgCl.Run overlap s [] s
  | snoc {s s' s'' : WgCl} {evs : List WgEv} {ev : WgEv} : WgCl.Run overlap s evs s' → s'.crashed = none → WgCl.Step overlap s' ev s'' → WgCl.Run overlap s (evs ++ [ev]) s''

end Verif.Model
