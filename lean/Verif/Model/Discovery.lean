import Verif.Basic.GMap
import Verif.Model.Keepalive

/-!
# Model of `/repo/eventsource/discovery.go`, lines 15-137 and 260-298 (`Discovery`; the watch is in `Verif/Model/Watch.lean`)

What a method does to the map is a function (`DiscOp.effect`).  The goroutines — callers of the methods, `Run`, and `handleDiscovery`
with the user's handlers, which may call the methods again — form a transition system: a step takes the lock and does the effect,
or completes a channel send and releases the lock, or receives from a channel.  A method whose event finds the channel full keeps the
lock until there is room.
-/
namespace Verif.Model
open Verif

/-- The methods that take the lock.  `now` is the clock reading at line 267. -/
inductive DiscOp where
  /-- discovery.go:260-285 -/
  | observe (b : Beacon) (now : Int)
  /-- discovery.go:101-110 -/
  | add (info : Info)
  /-- discovery.go:113-126 -/
  | forget (id : String)
  /-- discovery.go:287-298 -/
  | lastSeen (id : String) (latest : Int)
  /-- discovery.go:90-98 -/
  | get (id : String)
  /-- discovery.go:129-137 -/
  | list
deriving DecidableEq, Repr

/-- An event sent on one of the channels. -/
inductive DiscNote where
  | discovered (info : Info)
  | forgotten (info : Info)
deriving DecidableEq, Repr

def DiscNote.info : DiscNote → Info
  | .discovered i | .forgotten i => i

/-- discovery.go:270-278 -/
def Beacon.toInfo (b : Beacon) (now : Int) : Info :=
  { id := b.identity, version := (b.version.toNat : Int), type := b.sourceType, address := b.address, direct := b.direct, lastSeen := now }

/-- What a method does to the map, and what it sends. -/
def DiscOp.effect (m : GMap String Info) : DiscOp → GMap String Info × Option DiscNote
  | .observe b now =>
    match m.get? b.identity with
    | some state => (m.set b.identity { state with lastSeen := now }, none)
    | none => (m.set b.identity (b.toInfo now), some (.discovered (b.toInfo now)))
  | .add info =>
    match m.get? info.id with
    | some _ => (m, none)
    | none => (m.set info.id info, some (.discovered info))
  | .forget id =>
    match m.get? id with
    | some state => (m.del id, some (.forgotten state))
    | none => (m.del id, none)
  | .lastSeen id latest =>
    match m.get? id with
    | none => (m, none)
    | some state => if latest > state.lastSeen then (m.set id { state with lastSeen := latest }, none) else (m, none)
  | .get _ => (m, none)
  | .list => (m, none)

/-- What Get and List return (discovery.go:90-98, 129-137). -/
def discGet (m : GMap String Info) (id : String) : Option Info := m.get? id
def discList (m : GMap String Info) : List Info := m.map Prod.snd

/-- discovery.go:43-44 -/
def discCap : Nat := 32

/-- What a goroutine is doing with the Discovery. -/
inductive DiscPC where
  | out
  /-- at `d.lock.Lock()` of a method -/
  | wanting (op : DiscOp)
  /-- at the channel send of a method, holding the lock -/
  | sending (n : DiscNote)
deriving DecidableEq

/-- The goroutine of handleDiscovery (lines 72-87). -/
inductive HandlerPC where
  /-- not started, or the select at line 74 -/
  | idle
  /-- in a user's handler -/
  | running (n : DiscNote)
  /-- returned -/
  | stopped
deriving DecidableEq

structure Disc where
  state : GMap String Info := []
  discovered : List Info := []
  forgotten : List Info := []
  /-- the goroutine that holds the lock; number 0 is handleDiscovery, 1 is Run, the others call methods -/
  lock : Option Nat := none
  pcs : Nat → DiscPC := fun _ => .out
  handler : HandlerPC := .idle

inductive DiscEv where
  /-- a goroutine calls a method -/
  | call (t : Nat) (op : DiscOp)
  /-- a method takes the lock and takes effect -/
  | effect (t : Nat) (op : DiscOp)
  /-- an event is put in its channel -/
  | sent (n : DiscNote)
  /-- a handler is called -/
  | handled (n : DiscNote)
  /-- a handler returns -/
  | handlerDone
  | handlerStopped

/-- Goroutine `t` moves. -/
def Disc.at (s : Disc) (t : Nat) (pc : DiscPC) : Disc := { s with pcs := fun u => if u = t then pc else s.pcs u }

/-- A channel has room for a note. -/
def Disc.room (s : Disc) : DiscNote → Prop
  | .discovered _ => s.discovered.length < discCap
  | .forgotten _ => s.forgotten.length < discCap

instance (s : Disc) (n : DiscNote) : Decidable (s.room n) := by cases n <;> unfold Disc.room <;> infer_instance

/-- A channel send. -/
def Disc.push (s : Disc) : DiscNote → Disc
  | .discovered i => { s with discovered := s.discovered ++ [i] }
  | .forgotten i => { s with forgotten := s.forgotten ++ [i] }

inductive Disc.Step : Disc → DiscEv → Disc → Prop where
  /-- A goroutine calls a method; handleDiscovery's can only do so inside a handler. -/
  | call {s : Disc} (t : Nat) (op : DiscOp) : s.pcs t = .out → (t = 0 → ∃ n, s.handler = .running n) →
      Disc.Step s (.call t op) (s.at t (.wanting op))
  /-- A method takes the lock; if it has nothing to send it releases it again. -/
  | effect {s : Disc} {t : Nat} {op : DiscOp} : s.pcs t = .wanting op → s.lock = none → (op.effect s.state).2 = none →
      Disc.Step s (.effect t op) { s.at t .out with state := (op.effect s.state).1 }
  /-- A method takes the lock and comes to its channel send. -/
  | effectSend {s : Disc} {t : Nat} {op : DiscOp} {n : DiscNote} : s.pcs t = .wanting op → s.lock = none →
      (op.effect s.state).2 = some n →
      Disc.Step s (.effect t op) { s.at t (.sending n) with state := (op.effect s.state).1, lock := some t }
  /-- discovery.go:108, 123, 283: blocks while the channel is full; the lock is released by the deferred Unlock -/
  | send {s : Disc} {t : Nat} {n : DiscNote} : s.pcs t = .sending n → s.room n →
      Disc.Step s (.sent n) { (s.push n).at t .out with lock := none }
  /-- discovery.go:77-80 -/
  | takeDiscovered {s : Disc} {i : Info} {rest : List Info} : s.handler = .idle → s.discovered = i :: rest →
      Disc.Step s (.handled (.discovered i)) { s with discovered := rest, handler := .running (.discovered i) }
  /-- discovery.go:81-84 -/
  | takeForgotten {s : Disc} {i : Info} {rest : List Info} : s.handler = .idle → s.forgotten = i :: rest →
      Disc.Step s (.handled (.forgotten i)) { s with forgotten := rest, handler := .running (.forgotten i) }
  /-- The user's handler returns; it is not inside a method then. -/
  | handlerDone {s : Disc} {n : DiscNote} : s.handler = .running n → s.pcs 0 = .out →
      Disc.Step s .handlerDone { s with handler := .idle }
  /-- discovery.go:75-76: the context has ended (Run has returned, or its context was cancelled) -/
  | handlerStop {s : Disc} : s.handler = .idle → Disc.Step s .handlerStopped { s with handler := .stopped }

inductive Disc.Run : Disc → List DiscEv → Disc → Prop where
  | nil {s : Disc} : Disc.Run s [] s
  | snoc {s s' s'' : Disc} {evs : List DiscEv} {ev : DiscEv} : Disc.Run s evs s' → Disc.Step s' ev s'' → Disc.Run s (evs ++ [ev]) s''

/-- discovery.go:57-68: what Run does with a received message: panic, skip it (`none`), or observe a beacon. -/
def discReceive (msg : Msg) : Res (Option Beacon) :=
  match msg.props with
  | none => .panic "nil pointer dereference"
  | some p =>
    match p.subject with
    | none => .panic "nil pointer dereference"
    | some s => if s ≠ "BEACON" then .ok none else (decodeBeacon msg).map some

end Verif.Model
