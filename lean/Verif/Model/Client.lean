import Verif.Model.Ctx
import Verif.Model.Keepalive

/-!
# Model of `/repo/eventsource/client.go` and `/repo/eventsource/flush.go`

A client, its listeners and the callers of its methods form a transition system.  Messages and errors arrive from the receivers in any
way.  Handlers are numbered; calling one is a step.  Simplifications: the short critical sections of `OnRecord`, `OnHeartbeat`,
`getHandlers` and `Listen` are single steps that need the lock to be free; `Close` runs its cleanup functions in one step, but
holds the lock until it returns.  An unrecovered panic ends the process: no step follows it.
-/
namespace Verif.Model
open Verif

/-- Where a listener is (client.go:87-137). -/
inductive LPC where
  /-- `Listen` has done wg.Add (line 88) and needs the lock (line 91) -/
  | adding
  /-- in receiver.Next (line 103) -/
  | receiving
  /-- in receiver.Accept (line 111) -/
  | accepting (m : Msg)
  /-- a message is decoded; at getHandlers (line 123) -/
  | fetching (d : Decoded)
  /-- in the loops at lines 126 and 130, with the handlers left to call -/
  | calling (d : Decoded) (hs : List Nat)
  /-- returned, wg.Done called -/
  | finished

structure Listener where
  pc : LPC := .adding
  /-- `Err()` of the context passed to the goroutine -/
  ctx : Option GoErr := none

/-- Where a call of `Close` is (client.go:140-147). -/
inductive ClosePC where
  /-- at line 141 -/
  | locking
  /-- in wg.Wait (line 146), holding the lock -/
  | waiting
  | returned
deriving DecidableEq

/-- client.go:24-34 -/
structure Client where
  /-- the call of `Close` that holds `lock` -/
  lock : Option Nat := none
  recordHandlers : List Nat := []
  heartbeatHandlers : List Nat := []
  /-- whether the channel made in `start` (line 53) has been closed by cleanup -/
  doneClosed : Bool := false
  wg : Nat := 0
  listeners : List Listener := []
  closers : List ClosePC := []
  /-- the process has ended by a panic -/
  crashed : Bool := false

inductive ClEv where
  | onRecord (h : Nat)
  | onHeartbeat (h : Nat)
  /-- `Listen` is called; it gets the next number -/
  | listen
  /-- the context given to `Listen` ends -/
  | cancel (l : Nat)
  /-- a receiver hands over a message -/
  | delivered (l : Nat) (m : Msg)
  /-- receiving or accepting a message fails -/
  | failed (l : Nat) (e : GoErr)
  /-- a message has been received and accepted -/
  | accepted (l : Nat) (m : Msg)
  /-- getHandlers has been called for a decoded message -/
  | fetched (l : Nat)
  /-- a handler is called -/
  | call (l : Nat) (h : Nat) (d : Decoded)
  /-- `Close` is called; it gets the next number -/
  | close
  | closeReturned (c : Nat)
  | panicked
  | tau

/-- client.go:124-133: the handlers for a message. -/
def Client.handlersFor (s : Client) : Decoded → List Nat
  | .record _ => s.recordHandlers
  | .heartbeat _ => s.heartbeatHandlers
  | _ => []

/-- Listener `l` moves. -/
def Client.at (s : Client) (l : Nat) (pc : LPC) : Client :=
  { s with listeners := s.listeners.modify l fun x => { x with pc := pc } }

/-- What cleanup does to a listener (client.go:93, 143-145): those whose cancel function is registered are cancelled. -/
def Listener.cleanup (x : Listener) : Listener :=
  match x.pc, x.ctx with
  | .adding, _ => x
  | _, none => { x with ctx := some .canceled }
  | _, some _ => x

inductive Client.Step (reg : Registry) : Client → ClEv → Client → Prop where
  /-- client.go:68-72 -/
  | onRecord {s : Client} (h : Nat) : s.lock = none → Client.Step reg s (.onRecord h) { s with recordHandlers := s.recordHandlers ++ [h] }
  /-- client.go:61-65 -/
  | onHeartbeat {s : Client} (h : Nat) : s.lock = none →
      Client.Step reg s (.onHeartbeat h) { s with heartbeatHandlers := s.heartbeatHandlers ++ [h] }
  /-- client.go:88: before the lock is taken -/
  | listen {s : Client} : Client.Step reg s .listen { s with wg := s.wg + 1, listeners := s.listeners ++ [{}] }
  /-- client.go:91-98 -/
  | listenStart {s : Client} {l : Nat} {x : Listener} : s.listeners[l]? = some x → x.pc = .adding → s.lock = none →
      Client.Step reg s .tau (s.at l .receiving)
  /-- The context given to Listen ends, and with it the listener's. -/
  | cancel {s : Client} {l : Nat} {x : Listener} (e : GoErr) : e.IsCtx → s.listeners[l]? = some x → x.ctx = none →
      Client.Step reg s (.cancel l) { s with listeners := s.listeners.modify l fun x => { x with ctx := some e } }
  /-- client.go:103: a message arrives (also after cancellation: `Next` may choose either) -/
  | deliver {s : Client} {l : Nat} {x : Listener} (m : Msg) : s.listeners[l]? = some x → x.pc = .receiving →
      Client.Step reg s (.delivered l m) (s.at l (.accepting m))
  /-- client.go:105-106: Next reports the end of the context; deferred wg.Done -/
  | nextEnded {s : Client} {l : Nat} {x : Listener} (e : GoErr) : s.listeners[l]? = some x → x.pc = .receiving →
      errorsIs (some e) x.ctx = true → Client.Step reg s (.failed l e) { s.at l .finished with wg := s.wg - 1 }
  /-- client.go:108-109: another error -/
  | nextError {s : Client} {l : Nat} {x : Listener} (e : GoErr) : s.listeners[l]? = some x → x.pc = .receiving →
      errorsIs (some e) x.ctx = false → Client.Step reg s (.failed l e) s
  /-- client.go:112-113 -/
  | acceptEnded {s : Client} {l : Nat} {x : Listener} {m : Msg} (e : GoErr) : s.listeners[l]? = some x → x.pc = .accepting m →
      errorsIs (some e) x.ctx = true → Client.Step reg s (.failed l e) { s.at l .finished with wg := s.wg - 1 }
  /-- client.go:115-116 -/
  | acceptError {s : Client} {l : Nat} {x : Listener} {m : Msg} (e : GoErr) : s.listeners[l]? = some x → x.pc = .accepting m →
      errorsIs (some e) x.ctx = false → Client.Step reg s (.failed l e) (s.at l .receiving)
  /-- client.go:118: accepted and decoded -/
  | decoded {s : Client} {l : Nat} {x : Listener} {m : Msg} {d : Decoded} : s.listeners[l]? = some x → x.pc = .accepting m →
      decodeMsg reg (some m) = .ok d → Client.Step reg s (.accepted l m) (s.at l (.fetching d))
  /-- client.go:119-121 -/
  | undecodable {s : Client} {l : Nat} {x : Listener} {m : Msg} {e : String} : s.listeners[l]? = some x → x.pc = .accepting m →
      decodeMsg reg (some m) = .err e → Client.Step reg s (.accepted l m) (s.at l .receiving)
  /-- client.go:118: decoding panics -/
  | decodePanic {s : Client} {l : Nat} {x : Listener} {m : Msg} {e : String} : s.listeners[l]? = some x → x.pc = .accepting m →
      decodeMsg reg (some m) = .panic e → Client.Step reg s .panicked { s with crashed := true }
  /-- client.go:123, 74-82 -/
  | fetch {s : Client} {l : Nat} {x : Listener} {d : Decoded} : s.listeners[l]? = some x → x.pc = .fetching d → s.lock = none →
      Client.Step reg s (.fetched l) (s.at l (.calling d (s.handlersFor d)))
  /-- client.go:126-132 -/
  | call {s : Client} {l : Nat} {x : Listener} {d : Decoded} {h : Nat} {hs : List Nat} : s.listeners[l]? = some x →
      x.pc = .calling d (h :: hs) → Client.Step reg s (.call l h d) (s.at l (.calling d hs))
  /-- back to line 103 -/
  | again {s : Client} {l : Nat} {x : Listener} {d : Decoded} : s.listeners[l]? = some x → x.pc = .calling d [] →
      Client.Step reg s .tau (s.at l .receiving)
  /-- `Close` is called -/
  | close {s : Client} : Client.Step reg s .close { s with closers := s.closers ++ [.locking] }
  /-- client.go:141-145: the first cleanup function closes the channel of `start`, the others cancel listeners -/
  | closeLock {s : Client} {c : Nat} : s.closers[c]? = some .locking → s.lock = none → s.doneClosed = false →
      Client.Step reg s .tau
        { s with lock := some c, doneClosed := true, closers := s.closers.set c .waiting, listeners := s.listeners.map Listener.cleanup }
  /-- client.go:54, 144: "close of closed channel" -/
  | closePanic {s : Client} {c : Nat} : s.closers[c]? = some .locking → s.lock = none → s.doneClosed = true →
      Client.Step reg s .panicked { s with crashed := true }
  /-- client.go:146-147 -/
  | closeReturn {s : Client} {c : Nat} : s.closers[c]? = some .waiting → s.wg = 0 →
      Client.Step reg s (.closeReturned c) { s with lock := none, closers := s.closers.set c .returned }

/-- Finite executions; nothing happens after a crash. -/
inductive Client.Run (reg : Registry) : Client → List ClEv → Client → Prop where
  | nil {s : Client} : Client.Run reg s [] s
  | snoc {s s' s'' : Client} {evs : List ClEv} {ev : ClEv} : Client.Run reg s evs s' → s'.crashed = false → Client.Step reg s' ev s'' →
      Client.Run reg s (evs ++ [ev]) s''

/-! ## flush.go -/

/-- Where FlushOnFirstMessage is (flush.go:13-24). -/
inductive FfPC where
  /-- line 16, 17: registering the handlers -/
  | registering
  /-- the select at line 18 -/
  | waiting
  /-- line 20: in client.SendFlush(ctx), before and in sender.Send -/
  | sending
  /-- returned -/
  | returned (r : Option GoErr)
deriving DecidableEq

structure Ff where
  /-- `awaiter.once` has run -/
  once : Bool := false
  /-- `done` is closed -/
  doneClosed : Bool := false
  ctx : Option GoErr := none
  pc : FfPC := .registering
  crashed : Bool := false
deriving DecidableEq

inductive FfEv where
  | registered
  /-- the client calls one of the awaiter's handlers (flush.go:31-37) -/
  | handled
  | cancel
  /-- a message is given to the sender -/
  | send (addr : String) (msg : Msg)
  | return_ (r : Option GoErr)

inductive Ff.Step (src : Info) (snd : Callee) : Ff → FfEv → Ff → Prop where
  | register {s : Ff} : s.pc = .registering → Ff.Step src snd s .registered { s with pc := .waiting }
  /-- flush.go:31-37: `once.Do(func() { close(done) })`; the handlers may be called by any number of listeners, at any time from their
  registration on.  Simplification: they count as registered from the start. -/
  | handle {s : Ff} : Ff.Step src snd s .handled
      (if s.once then s else if s.doneClosed then { s with crashed := true } else { s with once := true, doneClosed := true })
  | cancel {s : Ff} (e : GoErr) : e.IsCtx → s.ctx = none → Ff.Step src snd s .cancel { s with ctx := some e }
  /-- flush.go:19-20, client.go:150-157: a flush message to the direct address -/
  | flush {s : Ff} : s.pc = .waiting → s.doneClosed = true →
      Ff.Step src snd s (.send src.direct (Flush.encode { hdr := ⟨src.direct, "", ""⟩ })) { s with pc := .sending }
  /-- client.go:157-160 -/
  | flushed {s : Ff} {r : Option GoErr} : s.pc = .sending → snd s.ctx r →
      Ff.Step src snd s (.return_ (r.map (.wrap "client flush error"))) { s with pc := .returned (r.map (.wrap "client flush error")) }
  /-- flush.go:21-22 -/
  | ended {s : Ff} {e : GoErr} : s.pc = .waiting → s.ctx = some e → Ff.Step src snd s (.return_ (some e)) { s with pc := .returned (some e) }

inductive Ff.Run (src : Info) (snd : Callee) : Ff → List FfEv → Ff → Prop where
  | nil {s : Ff} : Ff.Run src snd s [] s
  | snoc {s s' s'' : Ff} {evs : List FfEv} {ev : FfEv} : Ff.Run src snd s evs s' → s'.crashed = false → Ff.Step src snd s' ev s'' →
      Ff.Run src snd s (evs ++ [ev]) s''

end Verif.Model
