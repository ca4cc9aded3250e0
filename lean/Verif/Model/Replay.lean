import Verif.Model.Fixture

/-!
# Replays and the queues of the managers (`/repo/cmd/vanflow-tool/fixture.go:236-240, 255-359`, `/repo/eventsource/manager.go:64, 69-71, 73-78`)

What a replay publishes is `fakeFlow` (`Verif/Model/Fixture.lean`).  Here an update is only the number of the manager it is for: what matters is who waits for whom.
The loop of `serve` takes one update after the other until its context has ended (the loop itself: `Verif/Model/Manager.lean`).  Simplified: it may take an update at any time, as if
the messages it makes were always sent.  The lock around line 259 is in `Verif/Model/FixtureServer.lean`.
-/
namespace Verif.Model
open Verif

/-- A manager, seen by those who publish. -/
structure RqManager where
  /-- the number of updates in `changeQueue` -/
  queue : Nat := 0
  /-- its context has ended (fixture.go:95-97) -/
  cancelled : Bool := false
  /-- `serve` has returned -/
  returned : Bool := false
deriving DecidableEq

/-- A goroutine that runs `fakeFlow`. -/
structure RqReplay where
  /-- the managers of the updates that are still to be published, in order -/
  todo : List Nat
  flows : Nat
  done : Bool := false
deriving DecidableEq

structure Rq where
  managers : List RqManager := []
  replays : List RqReplay := []
  /-- `f.flowsProcessed` -/
  processed : Nat := 0

inductive RqEv where
  /-- `go managers[i].Run(manageCtx)` -/
  | manager
  /-- `go f.fakeFlow(...)` -/
  | replay (i flows : Nat)
  /-- `PublishUpdate` returns -/
  | published (i m : Nat)
  /-- `serve` takes an update -/
  | served (m : Nat)
  | cancelled (m : Nat)
  /-- `serve` returns -/
  | returned (m : Nat)
  /-- `fakeFlow` returns -/
  | finished (i flows : Nat)
deriving DecidableEq

/-- What happens without requests from outside. -/
def RqEv.internal : RqEv → Bool
  | .published _ _ | .served _ | .finished _ _ => true
  | _ => false

inductive Rq.Step : Rq → RqEv → Rq → Prop where
  /-- fixture.go:110-136 -/
  | manager {s : Rq} : Rq.Step s .manager { s with managers := s.managers ++ [{}] }
  /-- fixture.go:238-240; the managers are there -/
  | replay {s : Rq} {todo : List Nat} {flows : Nat} : (∀ m ∈ todo, m < s.managers.length) →
      Rq.Step s (.replay s.replays.length flows) { s with replays := s.replays ++ [{ todo := todo, flows := flows }] }
  /-- manager.go:69-71: `m.changeQueue <- update` -/
  | publish {s : Rq} {i m : Nat} {todo : List Nat} {flows : Nat} {g : RqManager} : s.replays[i]? = some { todo := m :: todo, flows := flows } → s.managers[m]? = some g →
      g.queue < changeQueueCap →
      Rq.Step s (.published i m) { s with replays := s.replays.set i { todo := todo, flows := flows }, managers := s.managers.set m { g with queue := g.queue + 1 } }
  /-- manager.go, `serve`: `case update := <-m.changeQueue` (manager.go:149); the select may choose this even if the context has ended -/
  | serve {s : Rq} {m : Nat} {g : RqManager} : s.managers[m]? = some g → g.queue ≠ 0 → g.returned = false →
      Rq.Step s (.served m) { s with managers := s.managers.set m { g with queue := g.queue - 1 } }
  /-- fixture.go:95-97 -/
  | cancel {s : Rq} {m : Nat} {g : RqManager} : s.managers[m]? = some g → g.cancelled = false →
      Rq.Step s (.cancelled m) { s with managers := s.managers.set m { g with cancelled := true } }
  /-- manager.go:147-148, 155-157, 174-175 -/
  | return {s : Rq} {m : Nat} {g : RqManager} : s.managers[m]? = some g → g.cancelled = true → g.returned = false →
      Rq.Step s (.returned m) { s with managers := s.managers.set m { g with returned := true } }
  /-- fixture.go:256-260 -/
  | finish {s : Rq} {i flows : Nat} : s.replays[i]? = some { todo := [], flows := flows } →
      Rq.Step s (.finished i flows) { s with replays := s.replays.set i { todo := [], flows := flows, done := true }, processed := s.processed + flows }

inductive Rq.Run : Rq → List RqEv → Rq → Prop where
  | nil {s : Rq} : Rq.Run s [] s
  | snoc {s s' s'' : Rq} {evs : List RqEv} {ev : RqEv} : Rq.Run s evs s' → Rq.Step s' ev s'' → Rq.Run s (evs ++ [ev]) s''

end Verif.Model
