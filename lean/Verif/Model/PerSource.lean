import Verif.Model.Client

/-!
# What `vanflow-tool` starts for a discovered source (`/repo/cmd/vanflow-tool/serve.go:121-182`, `/repo/cmd/vanflow-tool/log.go:55-110`)

A transition system of the goroutine that calls the discovery handlers (`Discovery.handleDiscovery`), and of what the Discovered handler has started for
each source: a container, a client with its listeners (`Verif/Model/Client.lean`) and a watch.

Simplifications.  Of the container only whether its goroutine runs is kept (`Verif/Model/Container.lean` has the rest).  The watch forgets its source whenever it
likes (`Verif/Model/Watch.lean` says when it does).  The channels `discovered` and `forgotten` of the discovery have room for everything: what a full
channel blocks is in `Verif/Model/Discovery.lean`.  `Discovery.lastSeen` is left out.  Of the flush goroutine only the registration of its handlers is kept
(`Verif/Model/Discovered.lean`).  The end of the tool's context reaches the contexts of the listeners one after the other.
-/
namespace Verif.Model
open Verif

/-- The flags that matter here (main.go:29-32, log.go:67-73). -/
structure ToolOpts where
  heartbeat : Bool := false
  records : Bool := true
  flow : Bool := true
  logs : Bool := true
  flush : Bool := false
deriving DecidableEq

/-- What the Discovered handler does with the client after NewWatchClient. -/
inductive HOp where
  /-- handler 1 is registered -/
  | onRecord
  | onHeartbeat
  | listen (addr : String)
  /-- the flush goroutine is started -/
  | goFlush
deriving DecidableEq, Repr

/-- client.go:14-18, 178-192 -/
def fromSourceAddress (i : Info) : String := i.address
/-- client.go:15, 186-188 -/
def fromSourceAddressFlows (i : Info) : String := i.address ++ ".flows"
/-- client.go:16, 182-184 -/
def fromSourceAddressLogs (i : Info) : String := i.address ++ ".logs"
/-- client.go:17, 190-192 -/
def fromSourceAddressHeartbeats (i : Info) : String := i.address ++ ".heartbeats"

/-- serve.go:146-163, log.go:88-105: the calls of `Listen`. -/
def listenOps (o : ToolOpts) (i : Info) : List HOp :=
  [.listen (fromSourceAddress i)]
    ++ (if o.flow then [.listen (fromSourceAddressFlows i)] else [])
    ++ (if o.logs then [.listen (fromSourceAddressLogs i)] else [])
    ++ (if i.type = "CONTROLLER" then [.listen (fromSourceAddressHeartbeats i)] else [])

/-- The two commands that discover sources. -/
inductive DiscCmd where
  | serve | log
deriving DecidableEq, Repr

/-- serve.go:145-176, log.go:67-105. -/
def DiscCmd.ops (o : ToolOpts) (i : Info) : DiscCmd → List HOp
  | .serve => [.onRecord] ++ listenOps o i ++ [.goFlush]
  | .log => (if o.heartbeat then [.onHeartbeat] else []) ++ (if o.records then [.onRecord] else []) ++ (if o.flush then [.goFlush] else [])
      ++ listenOps o i

inductive WatchPart where
  /-- not yet started -/
  | none
  /-- in the loop of discovery.go:219 -/
  | watching
  /-- it has forgotten its source (discovery.go:228) and calls or has called `Close` (discovery.go:215) -/
  | forgot
  /-- it has seen the end of its context (discovery.go:221) and calls or has called `Close` -/
  | cancelled
deriving DecidableEq, Repr

/-- What belongs to one call of the Discovered handler. -/
structure SrcRes where
  source : Info
  /-- the goroutine of the container runs -/
  ctr : Bool := true
  watch : WatchPart := .none
  client : Client := {}
  /-- the addresses of the client's listeners -/
  addrs : List String := []
  /-- the flush goroutine has been started -/
  flush : Bool := false

/-- The goroutine of `handleDiscovery` (discovery.go:72-87). -/
inductive ToolHandlerPC where
  /-- in the select -/
  | idle
  /-- in the Discovered handler, at NewWatchClient (serve.go:131, log.go:62) for the `k`-th source -/
  | making (k : Nat)
  /-- after it, with this left to do -/
  | doing (k : Nat) (todo : List HOp)
  /-- in `client.Listen`, which is listener `l` -/
  | listening (k : Nat) (l : Nat) (todo : List HOp)
  /-- returned -/
  | ended
deriving DecidableEq

structure ToolRes where
  /-- `ctx.Err()` of the tool -/
  ctx : Option GoErr := none
  /-- `d.state` -/
  known : GMap String Info := []
  /-- `d.discovered` -/
  discovered : List Info := []
  /-- `d.forgotten` -/
  forgotten : List Info := []
  handler : ToolHandlerPC := .idle
  /-- what has been started, in the order of the calls of Discovered -/
  srcs : List SrcRes := []

inductive TrEv where
  /-- a beacon of an unknown source is observed -/
  | beacon (i : Info)
  /-- the Discovered handler is called, for the `k`-th time, and starts a container -/
  | discovered (k : Nat)
  /-- NewWatchClient succeeds, or not -/
  | watched (k : Nat)
  | unknown (k : Nat)
  /-- the handler does something with the client -/
  | did (k : Nat) (op : HOp)
  /-- `Listen` returns -/
  | listened (k : Nat) (l : Nat)
  /-- the Discovered handler returns -/
  | returned (k : Nat)
  /-- the Forgotten handler is called -/
  | forgotten (i : Info)
  /-- `handleDiscovery` returns -/
  | stopped
  /-- the watch forgets its source -/
  | forget (k : Nat)
  /-- the watch sees the end of the context -/
  | watchEnded (k : Nat)
  /-- something in the client -/
  | client (k : Nat) (ev : ClEv)
  /-- the container ends because of its context -/
  | ctrEnded (k : Nat)
  /-- the container gives up reconnecting -/
  | gaveUp (k : Nat)
  /-- the tool's context ends -/
  | cancel

/-- Steps of a client by itself: those of its listeners and of calls of `Close` in progress. -/
def ClEv.inner : ClEv → Bool
  | .onRecord _ | .onHeartbeat _ | .listen | .cancel _ | .close => false
  | _ => true

/-- The `k`-th source changes. -/
def ToolRes.upd (s : ToolRes) (k : Nat) (f : SrcRes → SrcRes) : ToolRes := { s with srcs := s.srcs.modify k f }

inductive ToolRes.Step (reg : Registry) (cmd : DiscCmd) (o : ToolOpts) : ToolRes → TrEv → ToolRes → Prop where
  /-- discovery.go:265-284 -/
  | beacon {s : ToolRes} (i : Info) : s.known.get? i.id = none →
      ToolRes.Step reg cmd o s (.beacon i) { s with known := s.known.set i.id i, discovered := s.discovered ++ [i] }
  /-- discovery.go:77-79, serve.go:125-130, log.go:59-61 -/
  | discovered {s : ToolRes} {i : Info} {rest : List Info} : s.handler = .idle → s.discovered = i :: rest →
      ToolRes.Step reg cmd o s (.discovered s.srcs.length)
        { s with discovered := rest, handler := .making s.srcs.length, srcs := s.srcs ++ [{ source := i }] }
  /-- discovery.go:162, 167-169, 178-193 -/
  | watched {s : ToolRes} {k : Nat} {r : SrcRes} {i : Info} : s.handler = .making k → s.srcs[k]? = some r → s.known.get? r.source.id = some i →
      r.client.lock = none →
      ToolRes.Step reg cmd o s (.watched k)
        { (s.upd k fun r => { r with
            watch := .watching
            client := { r.client with heartbeatHandlers := r.client.heartbeatHandlers ++ [0], recordHandlers := r.client.recordHandlers ++ [0] } }) with
          handler := .doing k (cmd.ops o r.source) }
  /-- discovery.go:163-165, serve.go:132-135, log.go:63-66 -/
  | unknown {s : ToolRes} {k : Nat} {r : SrcRes} : s.handler = .making k → s.srcs[k]? = some r → s.known.get? r.source.id = none →
      ToolRes.Step reg cmd o s (.unknown k) { s with handler := .idle }
  /-- serve.go:145, log.go:71 -/
  | onRecord {s : ToolRes} {k : Nat} {r : SrcRes} {todo : List HOp} : s.handler = .doing k (.onRecord :: todo) → s.srcs[k]? = some r →
      r.client.lock = none →
      ToolRes.Step reg cmd o s (.did k .onRecord)
        { (s.upd k fun r => { r with client := { r.client with recordHandlers := r.client.recordHandlers ++ [1] } }) with handler := .doing k todo }
  /-- log.go:68 -/
  | onHeartbeat {s : ToolRes} {k : Nat} {r : SrcRes} {todo : List HOp} : s.handler = .doing k (.onHeartbeat :: todo) → s.srcs[k]? = some r →
      r.client.lock = none →
      ToolRes.Step reg cmd o s (.did k .onHeartbeat)
        { (s.upd k fun r => { r with client := { r.client with heartbeatHandlers := r.client.heartbeatHandlers ++ [1] } }) with handler := .doing k todo }
  /-- client.go:88-89 -/
  | listen {s : ToolRes} {k : Nat} {r : SrcRes} {addr : String} {todo : List HOp} : s.handler = .doing k (.listen addr :: todo) → s.srcs[k]? = some r →
      ToolRes.Step reg cmd o s (.did k (.listen addr))
        { (s.upd k fun r => { r with
            client := { r.client with wg := r.client.wg + 1, listeners := r.client.listeners ++ [{}] }
            addrs := r.addrs ++ [addr] }) with
          handler := .listening k r.client.listeners.length todo }
  /-- client.go:91-136; the listener has started -/
  | listened {s : ToolRes} {k l : Nat} {r : SrcRes} {x : Listener} {todo : List HOp} : s.handler = .listening k l todo → s.srcs[k]? = some r →
      r.client.listeners[l]? = some x → x.pc ≠ .adding →
      ToolRes.Step reg cmd o s (.listened k l) { s with handler := .doing k todo }
  /-- serve.go:164, log.go:74 -/
  | goFlush {s : ToolRes} {k : Nat} {todo : List HOp} : s.handler = .doing k (.goFlush :: todo) →
      ToolRes.Step reg cmd o s (.did k .goFlush) { (s.upd k fun r => { r with flush := true }) with handler := .doing k todo }
  /-- serve.go:177, log.go:106 -/
  | returned {s : ToolRes} {k : Nat} : s.handler = .doing k [] → ToolRes.Step reg cmd o s (.returned k) { s with handler := .idle }
  /-- discovery.go:81-83, serve.go:178-181, log.go:107-109 -/
  | forgotten {s : ToolRes} {i : Info} {rest : List Info} : s.handler = .idle → s.forgotten = i :: rest →
      ToolRes.Step reg cmd o s (.forgotten i) { s with forgotten := rest }
  /-- discovery.go:54, 75-76: also when `Run` returns because of an error of its receiver -/
  | stopped {s : ToolRes} : s.handler = .idle → ToolRes.Step reg cmd o s .stopped { s with handler := .ended }
  /-- discovery.go:228-229, 113-126, 215 -/
  | forget {s : ToolRes} {k : Nat} {r : SrcRes} : s.srcs[k]? = some r → r.watch = .watching →
      ToolRes.Step reg cmd o s (.forget k)
        { (s.upd k fun r => { r with watch := .forgot, client := { r.client with closers := r.client.closers ++ [.locking] } }) with
          known := s.known.del r.source.id
          forgotten := s.forgotten ++ (s.known.get? r.source.id).toList }
  /-- discovery.go:221-222, 215 -/
  | watchEnded {s : ToolRes} {k : Nat} {r : SrcRes} : s.srcs[k]? = some r → r.watch = .watching → s.ctx.isSome = true →
      ToolRes.Step reg cmd o s (.watchEnded k)
        (s.upd k fun r => { r with watch := .cancelled, client := { r.client with closers := r.client.closers ++ [.locking] } })
  /-- the listeners of a client, and its `Close` -/
  | client {s : ToolRes} {k : Nat} {r : SrcRes} {ev : ClEv} {c' : Client} : s.srcs[k]? = some r → ev.inner = true → Client.Step reg r.client ev c' →
      ToolRes.Step reg cmd o s (.client k ev) (s.upd k fun r => { r with client := c' })
  /-- flush.go:16: the flush goroutine registers handler 2 -/
  | flushRecord {s : ToolRes} {k : Nat} {r : SrcRes} : s.srcs[k]? = some r → r.flush = true → r.client.lock = none →
      ToolRes.Step reg cmd o s (.client k (.onRecord 2))
        (s.upd k fun r => { r with client := { r.client with recordHandlers := r.client.recordHandlers ++ [2] } })
  /-- flush.go:17 -/
  | flushHeartbeat {s : ToolRes} {k : Nat} {r : SrcRes} : s.srcs[k]? = some r → r.flush = true → r.client.lock = none →
      ToolRes.Step reg cmd o s (.client k (.onHeartbeat 2))
        (s.upd k fun r => { r with client := { r.client with heartbeatHandlers := r.client.heartbeatHandlers ++ [2] } })
  /-- The tool's context ends; its error is `context.Canceled` or `context.DeadlineExceeded`. -/
  | cancel {s : ToolRes} (e : GoErr) : e.IsCtx → s.ctx = none → ToolRes.Step reg cmd o s .cancel { s with ctx := some e }
  /-- client.go:89: the context of a listener is made from the tool's -/
  | listenerCtx {s : ToolRes} {k l : Nat} {r : SrcRes} {x : Listener} {e : GoErr} : s.ctx = some e → s.srcs[k]? = some r →
      r.client.listeners[l]? = some x → x.ctx = none →
      ToolRes.Step reg cmd o s (.client k (.cancel l))
        (s.upd k fun r => { r with client := { r.client with listeners := r.client.listeners.modify l fun x => { x with ctx := some e } } })
  /-- serve.go:126, log.go:60, container.go:196-197, 221-222 -/
  | ctrEnded {s : ToolRes} {k : Nat} {r : SrcRes} : s.srcs[k]? = some r → r.ctr = true → s.ctx.isSome = true →
      ToolRes.Step reg cmd o s (.ctrEnded k) (s.upd k fun r => { r with ctr := false })
  /-- main.go:123-124, container.go:224-229 -/
  | gaveUp {s : ToolRes} {k : Nat} {r : SrcRes} : s.srcs[k]? = some r → r.ctr = true →
      ToolRes.Step reg cmd o s (.gaveUp k) (s.upd k fun r => { r with ctr := false })

/-- Finite executions; a panic in a client ends the process. -/
inductive ToolRes.Run (reg : Registry) (cmd : DiscCmd) (o : ToolOpts) : ToolRes → List TrEv → ToolRes → Prop where
  | nil {s : ToolRes} : ToolRes.Run reg cmd o s [] s
  | snoc {s s' s'' : ToolRes} {evs : List TrEv} {ev : TrEv} : ToolRes.Run reg cmd o s evs s' → (∀ r ∈ s'.srcs, r.client.crashed = false) →
      ToolRes.Step reg cmd o s' ev s'' → ToolRes.Run reg cmd o s (evs ++ [ev]) s''

end Verif.Model
