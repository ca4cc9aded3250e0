import Verif.Model.Fixture

/-!
# The fixture server as a concurrent program (`/repo/cmd/vanflow-tool/fixture.go:25-260`)

The goroutine of `Start`, any number of HTTP requests to the two routes and the replays they start, with the lock `f.lock` and the channel `f.updates`.
What a replay publishes is in `Verif/Model/Fixture.lean`; here it is a user of the lock.  A `Mutex` may be given to any of those that wait for it.
An uploaded body that can be read always gives a configuration (`C71_upload`), so the answer with status 500 (fixture.go:174-179) is left out.
Time passes without bound: the half second before each manager (fixture.go:132) is a step.
-/
namespace Verif.Model
open Verif

/-- What is sent on `f.updates`. -/
abbrev FxConfig := GMap SourceRef (Cache (GoRec GoTime))

/-- `f.status` (fixture.go:30, 99, 138). -/
inductive FxStatus where
  | pending | reconfiguring | running
deriving DecidableEq, Repr

/-- Who holds `f.lock`. -/
inductive FxWho where
  | starter
  | req (t : Nat)
  | replay (i : Nat)
deriving DecidableEq

/-- Where the goroutine of `Start` is. -/
inductive StPC where
  /-- line 90: in the select -/
  | waiting
  /-- line 93: a configuration has been received -/
  | taken (cfg : FxConfig)
  /-- line 98: before `f.lock.Lock()` -/
  | clear (cfg : FxConfig)
  /-- lines 99-101, with the lock -/
  | clearing (cfg : FxConfig)
  /-- lines 102-129 -/
  | create (cfg : FxConfig)
  /-- lines 131-136: these are still to be started -/
  | start (todo ms : GMap String FixManager)
  /-- line 137: before `f.lock.Lock()` -/
  | publish (ms : GMap String FixManager)
  /-- lines 138-140, with the lock -/
  | publishing (ms : GMap String FixManager)
  /-- line 92: returned -/
  | ended

/-- What a client gets. -/
inductive FxAnswer where
  /-- the status, as it was when the request came in (fixture.go:150) -/
  | status (s : FxStatus)
  /-- the body could not be read (fixture.go:160-165) -/
  | bad (s : FxStatus)
  /-- the answer to a request for /flows (fixture.go:249) -/
  | flows
deriving DecidableEq

/-- Where the handler of a request is. -/
inductive FxReq where
  /-- line 149: before `f.lock.Lock()`; `post` is the method -/
  | fxLock (post : Bool)
  /-- line 150, with the lock -/
  | fxHeld (post : Bool)
  /-- line 160: reading the body -/
  | fxBody (s : FxStatus)
  /-- line 182: `f.updates <- sourceStores` -/
  | fxSend (s : FxStatus) (cfg : FxConfig)
  /-- lines 153, 163, 183: writing the answer -/
  | fxAnswer (a : FxAnswer)
  /-- line 193: before `f.lock.Lock()` -/
  | flLock (post : Bool)
  /-- line 227: reading the body, with the lock -/
  | flBody
  /-- lines 229-234, 249: writing the answer, with the lock -/
  | flAnswer
  | done

/-- Where a replay is (fixture.go:255-260). -/
inductive RpPC where
  | publishing
  /-- line 257: before `f.lock.Lock()` -/
  | lock
  /-- line 259, with the lock -/
  | held
  | done
deriving DecidableEq

structure Fx where
  /-- the context of `Start` has ended -/
  ctxDone : Bool := false
  lock : Option FxWho := none
  status : FxStatus := .pending
  managers : Option (GMap String FixManager) := none
  starter : StPC := .waiting
  /-- how many configurations have been received; each has its own `manageCtx` -/
  gen : Nat := 0
  /-- the containers created for managers; they are started with the context of `Start` (fixture.go:107) and nothing stops them before -/
  containers : Nat := 0
  reqs : List FxReq := []
  replays : List RpPC := []

inductive FxEv where
  /-- a step that nobody sees -/
  | tau
  /-- a request comes in -/
  | request (t : Nat)
  /-- the client has sent the body of an upload: `none` if it cannot be read -/
  | body (t : Nat) (cfg : Option FxConfig)
  /-- the client has sent the body of a request for /flows -/
  | flowsBody (t : Nat) (ok : Bool)
  /-- the goroutine of `Start` has received this configuration -/
  | took (t : Nat) (cfg : FxConfig)
  /-- `manageCancel()` of this generation -/
  | stop (g : Nat)
  /-- `go managers[i].Run(manageCtx)` -/
  | started (g : Nat) (m : FixManager)
  /-- an answer is written -/
  | answered (t : Nat) (a : FxAnswer)
  /-- a replay has published everything -/
  | published (i : Nat)
  | shutdown

/-- What is no matter of clients, replays or the context: the steps the program makes by itself. -/
def FxEv.internal : FxEv → Bool
  | .tau | .took _ _ | .stop _ | .started _ _ => true
  | .answered _ a => a != .flows
  | _ => false

inductive Fx.Step : Fx → FxEv → Fx → Prop where
  /-- fixture.go:146-148, 191-192 -/
  | request {s : Fx} {r : FxReq} : (∃ post, r = .fxLock post ∨ r = .flLock post) → Fx.Step s (.request s.reqs.length) { s with reqs := s.reqs ++ [r] }
  /-- fixture.go:149 -/
  | fxLock {s : Fx} {t : Nat} {post : Bool} : s.reqs[t]? = some (.fxLock post) → s.lock = none →
      Fx.Step s .tau { s with lock := some (.req t), reqs := s.reqs.set t (.fxHeld post) }
  /-- fixture.go:150-155 -/
  | fxRead {s : Fx} {t : Nat} {post : Bool} : s.reqs[t]? = some (.fxHeld post) →
      Fx.Step s .tau { s with lock := none, reqs := s.reqs.set t (if post then .fxBody s.status else .fxAnswer (.status s.status)) }
  /-- fixture.go:157-165: the body cannot be read -/
  | fxBad {s : Fx} {t : Nat} {st : FxStatus} : s.reqs[t]? = some (.fxBody st) → Fx.Step s (.body t none) { s with reqs := s.reqs.set t (.fxAnswer (.bad st)) }
  /-- fixture.go:157-181 -/
  | fxBody {s : Fx} {t : Nat} {st : FxStatus} {cfg : FxConfig} : s.reqs[t]? = some (.fxBody st) →
      Fx.Step s (.body t (some cfg)) { s with reqs := s.reqs.set t (.fxSend st cfg) }
  /-- fixture.go:93, 182: the channel has no buffer -/
  | take {s : Fx} {t : Nat} {st : FxStatus} {cfg : FxConfig} : s.reqs[t]? = some (.fxSend st cfg) → s.starter = .waiting →
      Fx.Step s (.took t cfg) { s with reqs := s.reqs.set t (.fxAnswer (.status st)), starter := .taken cfg, gen := s.gen + 1 }
  /-- fixture.go:153, 163, 183 -/
  | fxAnswer {s : Fx} {t : Nat} {a : FxAnswer} : s.reqs[t]? = some (.fxAnswer a) → Fx.Step s (.answered t a) { s with reqs := s.reqs.set t .done }
  /-- fixture.go:193-221 -/
  | flLock {s : Fx} {t : Nat} {post : Bool} : s.reqs[t]? = some (.flLock post) → s.lock = none →
      Fx.Step s .tau { s with lock := some (.req t), reqs := s.reqs.set t (if post then .flBody else .flAnswer) }
  /-- fixture.go:227-235: the body cannot be read -/
  | flBad {s : Fx} {t : Nat} : s.reqs[t]? = some .flBody → Fx.Step s (.flowsBody t false) { s with reqs := s.reqs.set t .flAnswer }
  /-- fixture.go:227-240: one replay for each pair of flows of the managers -/
  | flBody {s : Fx} {t k : Nat} : s.reqs[t]? = some .flBody → (s.managers = none → k = 0) →
      Fx.Step s (.flowsBody t true) { s with reqs := s.reqs.set t .flAnswer, replays := s.replays ++ List.replicate k .publishing }
  /-- fixture.go:194, 229-235, 249 -/
  | flAnswer {s : Fx} {t : Nat} : s.reqs[t]? = some .flAnswer → Fx.Step s (.answered t .flows) { s with lock := none, reqs := s.reqs.set t .done }
  /-- fixture.go:255-358, its end -/
  | published {s : Fx} {i : Nat} : s.replays[i]? = some .publishing → Fx.Step s (.published i) { s with replays := s.replays.set i .lock }
  /-- fixture.go:257 -/
  | rpLock {s : Fx} {i : Nat} : s.replays[i]? = some .lock → s.lock = none →
      Fx.Step s .tau { s with lock := some (.replay i), replays := s.replays.set i .held }
  /-- fixture.go:258-259 -/
  | rpDone {s : Fx} {i : Nat} : s.replays[i]? = some .held → Fx.Step s .tau { s with lock := none, replays := s.replays.set i .done }
  /-- fixture.go:95: there is no `manageCancel` yet -/
  | first {s : Fx} {cfg : FxConfig} : s.starter = .taken cfg → s.gen = 1 → Fx.Step s .tau { s with starter := .clear cfg }
  /-- fixture.go:95-97 -/
  | stop {s : Fx} {cfg : FxConfig} : s.starter = .taken cfg → s.gen ≠ 1 → Fx.Step s (.stop (s.gen - 1)) { s with starter := .clear cfg }
  /-- fixture.go:98 -/
  | clear {s : Fx} {cfg : FxConfig} : s.starter = .clear cfg → s.lock = none → Fx.Step s .tau { s with starter := .clearing cfg, lock := some .starter }
  /-- fixture.go:99-101 -/
  | cleared {s : Fx} {cfg : FxConfig} : s.starter = .clearing cfg →
      Fx.Step s .tau { s with starter := .create cfg, lock := none, status := .reconfiguring, managers := none }
  /-- fixture.go:102-129: a container for each source; the map may be ranged over in any order -/
  | create {s : Fx} {cfg cfg' : FxConfig} : s.starter = .create cfg → cfg'.Perm cfg →
      Fx.Step s .tau { s with starter := .start (fixManagers cfg' []) (fixManagers cfg' []), containers := s.containers + cfg.length }
  /-- fixture.go:131-136, one turn of the loop, in any order -/
  | start {s : Fx} {todo ms : GMap String FixManager} {n : String} {m : FixManager} {l r : GMap String FixManager} : s.starter = .start todo ms → todo = l ++ (n, m) :: r →
      Fx.Step s (.started s.gen m) { s with starter := .start (l ++ r) ms }
  /-- the loop is over -/
  | startDone {s : Fx} {ms : GMap String FixManager} : s.starter = .start [] ms → Fx.Step s .tau { s with starter := .publish ms }
  /-- fixture.go:137 -/
  | publish {s : Fx} {ms : GMap String FixManager} : s.starter = .publish ms → s.lock = none →
      Fx.Step s .tau { s with starter := .publishing ms, lock := some .starter }
  /-- fixture.go:138-140 -/
  | publishDone {s : Fx} {ms : GMap String FixManager} : s.starter = .publishing ms →
      Fx.Step s .tau { s with starter := .waiting, lock := none, status := .running, managers := some ms }
  /-- fixture.go:91-92, with the deferred `manageCancel` calls of line 103, which change nothing any more -/
  | ended {s : Fx} : s.starter = .waiting → s.ctxDone = true → Fx.Step s .tau { s with starter := .ended }
  | shutdown {s : Fx} : s.ctxDone = false → Fx.Step s .shutdown { s with ctxDone := true }

inductive Fx.Run : Fx → List FxEv → Fx → Prop where
  | nil {s : Fx} : Fx.Run s [] s
  | snoc {s s' s'' : Fx} {evs : List FxEv} {ev : FxEv} : Fx.Run s evs s' → Fx.Step s' ev s'' → Fx.Run s (evs ++ [ev]) s''

end Verif.Model
