import Verif.Spec.Keepalive
import Verif.Spec.Discovery
import Verif.Spec.FirstFlush

/-!
# A source that announces itself to a discovery through the router

The keepalive goroutine of a manager (`Ka`, /repo/eventsource/manager.go:228-307), the router of session/mock.go, `Discovery.Run` (/repo/eventsource/discovery.go:50-70) and the rest of the
discovery (`Disc`) form one system, which starts with an empty router.  Anybody else may use the router as they like, send any message to the address of the beacons, and call the exported
methods of the discovery.

Simplifications: the context of the Send of a beacon may end at any time; heartbeats are not tied to the router, since the discovery is not subscribed to their address (if it should be the
address of the beacons, they are among the messages of others).
-/
namespace Verif.Spec
open Verif Verif.Model

/-- Where `Discovery.Run` is. -/
inductive DiscRunPC where
  /-- discovery.go:51-57, before or in `Next` -/
  | receiving
  /-- discovery.go:61-67, with a message -/
  | holding (m : Nat)
  /-- discovery.go:68, in `observe` -/
  | observing
  /-- discovery.go:59 -/
  | returned
deriving DecidableEq, Repr

structure AnnCfg where
  ka : KaConfig
  /-- the sender of manager.go:256 -/
  snd : Nat
  /-- the receiver of discovery.go:51 -/
  rcv : Nat

structure Ann where
  ka : Ka
  mock : Mock := {}
  disc : Disc := {}
  run : DiscRunPC := .receiving
  /-- the messages sent to the address of the beacons; the router has their numbers -/
  msgs : List Msg := []
  /-- the call of Send in which the keepalive goroutine is, with a beacon -/
  sending : Option Nat := none
  /-- discovery.go:64 has panicked -/
  crashed : Bool := false

structure AnnEv where
  k : List KaEv := []
  n : List MockEv := []
  d : List DiscEv := []

/-- A step of the keepalive goroutine that neither begins nor ends the Send of a beacon. -/
def KaAlone : KaEv → Prop
  | .begin_ k .. => k = .heartbeat
  | .end_ k _ => k = .heartbeat
  | _ => True

/-- What others may do with the router: they do not receive for `Run`, nor close its receiver, nor return from a Send of the keepalive goroutine. -/
def Ann.Free (c : AnnCfg) (s : Ann) : MockEv → Prop
  | .recv r _ => r ≠ c.rcv
  | .nextClosed r => r ≠ c.rcv
  | .closeReceiver r => r = c.rcv → s.run = .returned
  | .ret o _ => s.sending ≠ some o
  | .call _ _ a _ => a ≠ beaconAddress
  | _ => True

/-- What the other goroutines do with the discovery: `observe` is called by `Run` only. -/
def DiscAlone : DiscEv → Prop
  | .call t op => t ≠ 1 ∧ ∀ b now, op ≠ .observe b now
  | _ => True

inductive Ann.Step (c : AnnCfg) : Ann → AnnEv → Ann → Prop where
  /-- manager.go:263, 285, 333: Send is called with a beacon -/
  | announce {s : Ann} {o : Nat} {k : KaKind} {msg : Msg} {ka : Ka} {mock : Mock} : s.sending = none → k ≠ .heartbeat →
      Ka.Step c.ka anyResult s.ka (.begin_ k beaconAddress msg) ka → Mock.Step s.mock (.call o c.snd beaconAddress s.msgs.length) mock →
      Ann.Step c s { k := [.begin_ k beaconAddress msg], n := [.call o c.snd beaconAddress s.msgs.length] }
        { s with ka := ka, mock := mock, msgs := s.msgs ++ [msg], sending := some o }
  /-- manager.go:333-339: Send returns -/
  | announced {s : Ann} {o : Nat} {k : KaKind} {r : KaRes} {e : Option GoErr} {ka : Ka} {mock : Mock} : s.sending = some o → k ≠ .heartbeat → (r = .ok ↔ e = none) →
      Ka.Step c.ka anyResult s.ka (.end_ k r) ka → Mock.Step s.mock (.ret o e) mock →
      Ann.Step c s { k := [.end_ k r], n := [.ret o e] } { s with ka := ka, mock := mock, sending := none }
  | ka {s : Ann} {ev : KaEv} {ka : Ka} : KaAlone ev → Ka.Step c.ka anyResult s.ka ev ka → Ann.Step c s { k := [ev] } { s with ka := ka }
  /-- somebody else sends a message to the address of the beacons -/
  | post {s : Ann} {o i : Nat} {mock : Mock} (msg : Msg) : Mock.Step s.mock (.call o i beaconAddress s.msgs.length) mock →
      Ann.Step c s { n := [.call o i beaconAddress s.msgs.length] } { s with mock := mock, msgs := s.msgs ++ [msg] }
  | router {s : Ann} {ev : MockEv} {mock : Mock} : s.Free c ev → Mock.Step s.mock ev mock → Ann.Step c s { n := [ev] } { s with mock := mock }
  /-- discovery.go:57: `Next` hands a message over -/
  | next {s : Ann} {m : Nat} {mock : Mock} : s.crashed = false → s.run = .receiving → Mock.Step s.mock (.recv c.rcv m) mock →
      Ann.Step c s { n := [.recv c.rcv m] } { s with mock := mock, run := .holding m }
  /-- discovery.go:58-59: the context has ended -/
  | return_ {s : Ann} : s.crashed = false → s.run = .receiving → Ann.Step c s {} { s with run := .returned }
  /-- discovery.go:64-67 -/
  | skip {s : Ann} {m : Nat} {msg : Msg} : s.crashed = false → s.run = .holding m → s.msgs[m]? = some msg → discReceive msg = .ok none →
      Ann.Step c s {} { s with run := .receiving }
  /-- discovery.go:64 -/
  | crash {s : Ann} {m : Nat} {msg : Msg} {t : String} : s.crashed = false → s.run = .holding m → s.msgs[m]? = some msg → discReceive msg = .panic t →
      Ann.Step c s {} { s with crashed := true }
  /-- discovery.go:68 -/
  | observe {s : Ann} {m : Nat} {msg : Msg} {b : Beacon} {disc : Disc} (now : Int) : s.crashed = false → s.run = .holding m → s.msgs[m]? = some msg →
      discReceive msg = .ok (some b) → Disc.Step s.disc (.call 1 (.observe b now)) disc →
      Ann.Step c s { d := [.call 1 (.observe b now)] } { s with disc := disc, run := .observing }
  /-- discovery.go:69: `observe` has returned -/
  | observed {s : Ann} : s.crashed = false → s.run = .observing → s.disc.pcs 1 = .out → Ann.Step c s {} { s with run := .receiving }
  | disc {s : Ann} {ev : DiscEv} {disc : Disc} : s.crashed = false → DiscAlone ev → Disc.Step s.disc ev disc → Ann.Step c s { d := [ev] } { s with disc := disc }

inductive Ann.Run (c : AnnCfg) : Ann → AnnEv → Ann → Prop where
  | nil {s : Ann} : Ann.Run c s {} s
  | snoc {s s' s'' : Ann} {evs ev : AnnEv} : Ann.Run c s evs s' → Ann.Step c s' ev s'' →
      Ann.Run c s { k := evs.k ++ ev.k, n := evs.n ++ ev.n, d := evs.d ++ ev.d } s''

/-- The beginning: the manager's goroutine has just been started, the router and the discovery are new. -/
def annStart (t : Int) : Ann := { ka := kaStart t }

/-- What is known of a source agrees with the configuration of the manager, as far as a beacon can tell. -/
def SourceData (src : Info) (i : Info) : Prop :=
  i.id = src.id ∧ i.address = src.address ∧ i.direct = src.direct ∧ i.type = src.type ∧ i.version = src.version % 4294967296

/-- A beacon with the data of the source. -/
def BeaconData (src : Info) (b : Beacon) : Prop :=
  b.identity = src.id ∧ b.address = src.address ∧ b.direct = src.direct ∧ b.sourceType = src.type ∧ (b.version.toNat : Int) = src.version % 4294967296

/-- Nobody else announces the source with other data: every beacon with its identity, and every `Add` of it, has the data of the manager's configuration. -/
structure Sincere (src : Info) (msgs : List Msg) (d : List DiscEv) : Prop where
  beacons : ∀ msg ∈ msgs, ∀ b, discReceive msg = .ok (some b) → b.identity = src.id → BeaconData src b
  adds : ∀ t i, DiscEv.effect t (.add i) ∈ d → i.id = src.id → SourceData src i

end Verif.Spec
