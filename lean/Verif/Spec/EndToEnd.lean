import Verif.Spec.Pipeline
import Verif.Spec.Mock
import Verif.Model.Client

/-!
# The whole system: a source with its manager, the mock router, a client and the collector's stores

The transition systems of `Model/Manager`, `Model/Mock` and `Model/Client` with their events tied together, as in the tests of `/repo/eventsource` and in
`/repo/cmd/vanflow-tool/serve.go:121-146` with a `session.NewMockContainerFactory`.  All goroutines of the three parts interleave freely.  Said of the surroundings: nobody else sends
to the source's address, the other listeners of the client get no record messages, and the stores are written by this client only.
-/
namespace Verif.Spec
open Verif Verif.Model

/-- Which parts are tied together. -/
structure SysCfg where
  mgr : MgrConfig
  /-- the record that is followed: its identity and kind -/
  id : String
  tm : TypeMeta
  /-- the address of the source -/
  addr : String
  /-- the sender the manager has made (manager.go:81) -/
  snd : Nat
  /-- the receiver made by `Listen` (client.go:98), and the listener -/
  rcv : Nat
  lst : Nat
  /-- the handler `dispatcher.Dispatch`, registered with `OnRecord` (serve.go:145) -/
  hnd : Nat
  world : RegWorld
  disp : Dispatcher

structure Sys where
  src : Src
  mock : Mock := {}
  cl : Client := {}
  stores : Stores (GoRec GoTime)
  /-- the messages the manager has given to the router, by number (in Go: pointers) -/
  msgs : List Msg := []
  /-- the call of Send in which `sendRecords` is (manager.go:93) -/
  sending : Option Nat := none
  /-- a handler has panicked, which ends the collector's process -/
  ended : Bool := false

/-- What is observed of a step: the events of the three parts. -/
structure SysEv where
  m : List MgrEv := []
  n : List MockEv := []
  c : List ClEv := []

inductive Sys.Step (k : SysCfg) : Sys → SysEv → Sys → Prop where
  /-- the program and the manager, but for the end of a Send -/
  | source {s : Sys} {ev : Option MgrEv} {src : Src} : Src.Step k.mgr k.id k.tm s.src ev src → (∀ rs m, ev ≠ some (.sent rs m)) →
      (∀ rs, ev ≠ some (.sendFailed rs)) → Sys.Step k s { m := ev.toList } { s with src := src }
  /-- manager.go:88-93: the message received from the queue is given to the router -/
  | send {s : Sys} {records : List (GoRec GoTime)} {rest : List (List (GoRec GoTime))} {msg : Msg} {mock : Mock} {o : Nat} : s.sending = none →
      s.src.mgr.sendQueue = records :: rest → RecordMsg.encode vanRegistry { records := records } = .ok msg →
      Mock.Step s.mock (.call o k.snd k.addr s.msgs.length) mock → s.src.mgr.snd = .busy →
      Sys.Step k s { n := [.call o k.snd k.addr s.msgs.length] } { s with mock := mock, msgs := s.msgs ++ [msg], sending := some o }
  /-- manager.go:93: Send returns nil -/
  | sent {s : Sys} {records : List (GoRec GoTime)} {msg : Msg} {mock : Mock} {src : Src} {o : Nat} : s.sending = some o →
      Mock.Step s.mock (.ret o none) mock → Src.Step k.mgr k.id k.tm s.src (some (.sent records msg)) src →
      Sys.Step k s { m := [.sent records msg], n := [.ret o none] } { s with mock := mock, src := src, sending := none }
  /-- manager.go:93-96: Send fails -/
  | sendFailed {s : Sys} {records : List (GoRec GoTime)} {mock : Mock} {src : Src} {o : Nat} {e : GoErr} : s.sending = some o →
      Mock.Step s.mock (.ret o (some e)) mock → Src.Step k.mgr k.id k.tm s.src (some (.sendFailed records)) src →
      Sys.Step k s { m := [.sendFailed records], n := [.ret o (some e)] } { s with mock := mock, src := src, sending := none }
  /-- the router, and its other users -/
  | router {s : Sys} {ev : MockEv} {mock : Mock} : Mock.Step s.mock ev mock → (∀ m, ev ≠ .recv k.rcv m) → (∀ o r, s.sending = some o → ev ≠ .ret o r) →
      (∀ o i m, ev ≠ .call o i k.addr m) → Sys.Step k s { n := [ev] } { s with mock := mock }
  /-- client.go:103: Next hands a message over -/
  | next {s : Sys} {m : Nat} {msg : Msg} {mock : Mock} {cl : Client} : s.cl.crashed = false → s.ended = false → Mock.Step s.mock (.recv k.rcv m) mock →
      s.msgs[m]? = some msg → Client.Step vanRegistry s.cl (.delivered k.lst msg) cl →
      Sys.Step k s { n := [.recv k.rcv m], c := [.delivered k.lst msg] } { s with mock := mock, cl := cl }
  /-- everything else the client does; mock.go:145-147: Accept does not fail -/
  | client {s : Sys} {ev : ClEv} {cl : Client} : s.cl.crashed = false → s.ended = false → Client.Step vanRegistry s.cl ev cl →
      (∀ msg, ev ≠ .delivered k.lst msg) → ev ≠ .onRecord k.hnd → (∀ l rm, ev ≠ .call l k.hnd (.record rm)) →
      (∀ e x m, ev = .failed k.lst e → s.cl.listeners[k.lst]? = some x → x.pc ≠ .accepting m) → Sys.Step k s { c := [ev] } { s with cl := cl }
  /-- client.go:126-128: the dispatcher is called -/
  | dispatch {s : Sys} {rm : RecordMsg} {cl : Client} {stores : Stores (GoRec GoTime)} (times : Nat → GoTime) : s.cl.crashed = false → s.ended = false →
      Client.Step vanRegistry s.cl (.call k.lst k.hnd (.record rm)) cl →
      k.world.dispatch vanOps k.disp (rm.records.zipIdx.map fun p => (p.1, times p.2)) s.stores = (stores, none) →
      Sys.Step k s { c := [.call k.lst k.hnd (.record rm)] } { s with cl := cl, stores := stores }
  /-- the same; it panics -/
  | dispatchPanic {s : Sys} {rm : RecordMsg} {cl : Client} {stores : Stores (GoRec GoTime)} {p : String} (times : Nat → GoTime) : s.cl.crashed = false →
      s.ended = false → Client.Step vanRegistry s.cl (.call k.lst k.hnd (.record rm)) cl →
      k.world.dispatch vanOps k.disp (rm.records.zipIdx.map fun p => (p.1, times p.2)) s.stores = (stores, some p) →
      Sys.Step k s { c := [.call k.lst k.hnd (.record rm)] } { s with cl := cl, stores := stores, ended := true }

inductive Sys.Run (k : SysCfg) : Sys → SysEv → Sys → Prop where
  | nil {s : Sys} : Sys.Run k s {} s
  | snoc {s s' s'' : Sys} {evs ev : SysEv} : Sys.Run k s evs s' → Sys.Step k s' ev s'' →
      Sys.Run k s { m := evs.m ++ ev.m, n := evs.n ++ ev.n, c := evs.c ++ ev.c } s''

/-- The messages handed to a listener. -/
def deliveredTo (l : Nat) (evs : List ClEv) : List Msg := evs.filterMap fun ev => match ev with | .delivered l' m => if l' = l then some m else none | _ => none

/-- Before the source does anything: whatever the router and the client have done before (`n0`, `c0`), the receiver is subscribed to the address of the source, nothing was sent to that
address, the listener has got no message, and the dispatcher is registered once. -/
structure Sys.Start (k : SysCfg) (n0 : List MockEv) (c0 : List ClEv) (s : Sys) : Prop where
  src : Src.Start k.mgr k.id k.tm s.src
  mock : Mock.Run {} n0 s.mock
  receiver : MockEv.newReceiver k.rcv k.addr ∈ n0
  subscribed : MockEv.subscribed k.rcv ∈ n0
  unsent : ∀ o i m, MockEv.call o i k.addr m ∉ n0
  cl : Client.Run vanRegistry {} c0 s.cl
  listener : ∃ x, s.cl.listeners[k.lst]? = some x ∧ (x.pc = .adding ∨ x.pc = .receiving ∨ x.pc = .finished)
  undelivered : deliveredTo k.lst c0 = []
  registered : s.cl.recordHandlers.count k.hnd = 1
  msgs : s.msgs = []
  sending : s.sending = none
  ended : s.ended = false

/-- `sendRecords` is in the call `o` of Send, with the message it took from the queue (manager.go:88-93). -/
structure Sys.Underway (k : SysCfg) (s : Sys) (o : Nat) : Prop where
  busy : s.src.mgr.snd = .busy
  call : ∃ op records rest msg, s.mock.ops[o]? = some op ∧ op.addr = k.addr ∧ (∀ r, op.pc ≠ .done r) ∧ s.src.mgr.sendQueue = records :: rest ∧
    RecordMsg.encode vanRegistry { records := records } = .ok msg ∧ s.msgs[op.msg]? = some msg

/-- A collector that joins: the source may have done anything before, and the router and the client too; since the receiver was subscribed to the address of the source nothing was sent
to it, every Send to it that was called has returned or is under way and its message not taken yet, the listener is not handling a message, and the dispatcher is registered once. -/
structure Sys.Join (k : SysCfg) (n0 : List MockEv) (c0 : List ClEv) (s : Sys) : Prop where
  src : ∃ s1 evs1, Src.Start k.mgr k.id k.tm s1 ∧ Src.Run k.mgr k.id k.tm s1 evs1 s.src
  mock : Mock.Run {} n0 s.mock
  receiver : MockEv.newReceiver k.rcv k.addr ∈ n0
  subscribed : MockEv.subscribed k.rcv ∈ n0
  unsent : sentAfter k.rcv k.addr n0 = []
  returned : ∀ o i m, MockEv.call o i k.addr m ∈ n0 → s.sending ≠ some o → ∃ r, MockEv.ret o r ∈ n0
  cl : Client.Run vanRegistry {} c0 s.cl
  listener : ∃ x, s.cl.listeners[k.lst]? = some x ∧ (x.pc = .adding ∨ x.pc = .receiving ∨ x.pc = .finished)
  registered : s.cl.recordHandlers.count k.hnd = 1
  sending : ∀ o, s.sending = some o → Sys.Underway k s o ∧ ∀ a m, MockEv.accepted o a m ∉ n0
  ended : s.ended = false

/-- All versions are published, all messages sent, received and handled. -/
def Sys.Still (k : SysCfg) (s : Sys) : Prop :=
  s.src.Drained ∧ s.sending = none ∧ (∀ x, s.mock.rcvs[k.rcv]? = some x → x.chan = []) ∧ ∃ x, s.cl.listeners[k.lst]? = some x ∧ x.pc = .receiving

/-- How the collector was set up: the stores `cfg i` with the history `h i`; the registrations `cs1` and the dispatcher for the source `ref` (others may follow); only the kind of the
record is registered for store `i`. -/
structure Collects (k : SysCfg) (cs1 cs2 : List RegCmd) (ref : SourceRef) (i : Nat) (cfg : Nat → CacheConfig (GoRec GoTime)) (h : Nat → List (Op (GoRec GoTime)))
    (stores : Stores (GoRec GoTime)) : Prop where
  plain : ∀ tm i, RegCmd.register tm i ∈ cs1 → PlainType tm
  only : ∀ tm, lastRegistered cs1 tm = some i ↔ tm = k.tm
  world : k.world = (runReg (cs1 ++ .newDispatcher ref :: cs2) {}).1
  disp : (runReg (cs1 ++ .newDispatcher ref :: cs2) {}).2[(runReg cs1 {}).2.length]? = some k.disp
  key : ∀ i, (cfg i).key = none
  good : ∀ i, GoodConfig (cfg i)
  hist : ∀ i, ∀ op ∈ h i, Op.All (Props.GoodRecord vanRegistry) op
  stores : stores = fun i => after vanOps (cfg i) (h i)

end Verif.Spec
