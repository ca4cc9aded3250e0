import Verif.Model.Container

/-!
# Model of the loops that receive messages, on a link of the container

Three goroutines call `Next` and `Accept` of a receiver in a loop: the one `Client.Listen` starts (/repo/eventsource/client.go:95-135), `Manager.listenFlushes`
(/repo/eventsource/manager.go:309-326) and `Discovery.Run` (/repo/eventsource/discovery.go:51-72).  Each does something else with the errors of these calls.  Here a loop
runs on a link of the container of Model/Container.lean, which it makes at its start and closes at its end; nobody else uses the link.

A message is named by the number of the call of `Next` that gave it; `none` stands for the nil message.  Not modelled here: what is in the messages and what is done with
them (Model/Client.lean, Model/Manager.lean, Model/Discovery.lean), so a `handled` event is: the listener decodes the message and calls the handlers (client.go:118-132),
a flush is queued or dropped (manager.go:321-324), the beacon is observed or the message skipped (discovery.go:65-70).
-/
namespace Verif.Model
open Verif

inductive LoopKind where
  /-- client.go:102-133 -/
  | client
  /-- manager.go:312-325 -/
  | flushes
  /-- discovery.go:56-71 -/
  | discovery
deriving DecidableEq, Repr

inductive RecvPC where
  /-- about to call Next: client.go:103, manager.go:313, discovery.go:57 -/
  | next
  /-- in Next; it is the operation `o` of the container -/
  | inNext (o : Nat)
  /-- about to call Accept: client.go:111, manager.go:320, discovery.go:61 -/
  | accept (m : Option Nat)
  | inAccept (o : Nat) (m : Option Nat)
  /-- client.go:118, manager.go:321, discovery.go:65 -/
  | handle (m : Option Nat)
  /-- the deferred Close of the receiver: client.go:101, manager.go:311, discovery.go:53 -/
  | closing
  | ended
deriving DecidableEq

structure RSys where
  ctr : Ctr
  /-- the link of the loop -/
  link : Nat
  /-- `Err()` of the context of the loop -/
  ctx : Option GoErr := none
  pc : RecvPC := .next

inductive LoopEv where
  | cancel (e : GoErr)
  /-- `Next` returns a message -/
  | received (m : Nat)
  /-- `Next` returns an error -/
  | nextErr (e : GoErr)
  /-- `Accept` of the message returns an error -/
  | acceptErr (m : Option Nat) (e : GoErr)
  | handled (m : Option Nat)
  | ended
deriving DecidableEq

/-- What happens in one step or in a run: in the container, and in the loop. -/
structure RsEv where
  c : List CtrEv := []
  l : List LoopEv := []

/-- client.go:104-109, manager.go:314-319, discovery.go:58-60: what follows when `Next` returned an error -/
def LoopKind.onNextErr (k : LoopKind) (e : GoErr) (ctx : Option GoErr) : RecvPC :=
  match k with
  | .client => if errorsIs (some e) ctx then .closing else .next
  | .flushes => if errorsIs (some e) ctx then .closing else .accept none
  | .discovery => .closing

/-- client.go:111-117, manager.go:320, discovery.go:61-64: what follows when `Accept` returned -/
def LoopKind.onAccept (k : LoopKind) (m : Option Nat) (r ctx : Option GoErr) : RecvPC :=
  match k, r with
  | .client, some e => if errorsIs (some e) ctx then .closing else .next
  | _, _ => .handle m

/-- The operation of the container the loop is in. -/
def RecvPC.op? : RecvPC → Option Nat
  | .inNext o | .inAccept o _ => some o
  | _ => none

/-- The steps of the container that are not steps of the loop, as far as the loop is concerned: all but calls and the closing of its link, and the cancellation and return of its own call. -/
def RSys.foreign (s : RSys) (ev : CtrEv) : Prop :=
  (∀ o, ev ≠ .call s.link o) ∧ ev ≠ .close s.link ∧ (∀ o, s.pc.op? = some o → (∀ e, ev ≠ .cancelOp o e) ∧ ∀ r, ev ≠ .ret o r)

/-- The call `o` of an operation `k` on the link of the loop, with its context. -/
def RSys.called (s : RSys) (k : OpKind) : Ctr := { s.ctr with ops := s.ctr.ops ++ [{ link := s.link, kind := k, ctx := s.ctx }] }

inductive RSys.Step (P : LinkPolicy) (k : LoopKind) : RSys → RsEv → RSys → Prop where
  /-- the container, other users of the container, and the calls of the loop while they run -/
  | env {s : RSys} {ev : CtrEv} {c : Ctr} : Ctr.Step P s.ctr ev c → s.foreign ev → RSys.Step P k s { c := [ev] } { s with ctr := c }
  /-- the context ends -/
  | cancel {s : RSys} (e : GoErr) : e.IsCtx → s.ctx = none → s.pc.op? = none → RSys.Step P k s { l := [.cancel e] } { s with ctx := some e }
  /-- the context ends, which is also the context of the call the loop is in -/
  | cancelCall {s : RSys} {o : Nat} {c : Ctr} (e : GoErr) : s.ctx = none → s.pc.op? = some o → Ctr.Step P s.ctr (.cancelOp o e) c →
      RSys.Step P k s { c := [.cancelOp o e], l := [.cancel e] } { s with ctr := c, ctx := some e }
  /-- client.go:103, manager.go:313, discovery.go:57 -/
  | callNext {s : RSys} : s.pc = .next → Ctr.Step P s.ctr (.call s.link s.ctr.ops.length) (s.called .next) →
      RSys.Step P k s { c := [.call s.link s.ctr.ops.length] } { s with ctr := s.called .next, pc := .inNext s.ctr.ops.length }
  | received {s : RSys} {o : Nat} {c : Ctr} : s.pc = .inNext o → Ctr.Step P s.ctr (.ret o none) c →
      RSys.Step P k s { c := [.ret o none], l := [.received o] } { s with ctr := c, pc := .accept (some o) }
  /-- client.go:104-109, manager.go:314-319, discovery.go:58-60 -/
  | nextErr {s : RSys} {o : Nat} {e : GoErr} {c : Ctr} : s.pc = .inNext o → Ctr.Step P s.ctr (.ret o (some e)) c →
      RSys.Step P k s { c := [.ret o (some e)], l := [.nextErr e] } { s with ctr := c, pc := k.onNextErr e s.ctx }
  /-- client.go:111, manager.go:320, discovery.go:61 -/
  | callAccept {s : RSys} {m : Option Nat} : s.pc = .accept m → Ctr.Step P s.ctr (.call s.link s.ctr.ops.length) (s.called .accept) →
      RSys.Step P k s { c := [.call s.link s.ctr.ops.length] } { s with ctr := s.called .accept, pc := .inAccept s.ctr.ops.length m }
  | accepted {s : RSys} {o : Nat} {m : Option Nat} {c : Ctr} : s.pc = .inAccept o m → Ctr.Step P s.ctr (.ret o none) c →
      RSys.Step P k s { c := [.ret o none] } { s with ctr := c, pc := k.onAccept m none s.ctx }
  /-- client.go:111-117, manager.go:320, discovery.go:61-64 -/
  | acceptErr {s : RSys} {o : Nat} {m : Option Nat} {e : GoErr} {c : Ctr} : s.pc = .inAccept o m → Ctr.Step P s.ctr (.ret o (some e)) c →
      RSys.Step P k s { c := [.ret o (some e)], l := [.acceptErr m e] } { s with ctr := c, pc := k.onAccept m (some e) s.ctx }
  /-- client.go:118-132, manager.go:321-324, discovery.go:65-70 -/
  | handle {s : RSys} {m : Option Nat} : s.pc = .handle m → RSys.Step P k s { l := [.handled m] } { s with pc := .next }
  /-- client.go:101, manager.go:311, discovery.go:53 -/
  | close {s : RSys} {c : Ctr} : s.pc = .closing → Ctr.Step P s.ctr (.close s.link) c →
      RSys.Step P k s { c := [.close s.link], l := [.ended] } { s with ctr := c, pc := .ended }

inductive RSys.Run (P : LinkPolicy) (k : LoopKind) : RSys → RsEv → RSys → Prop where
  | nil {s : RSys} : RSys.Run P k s {} s
  | snoc {s s' s'' : RSys} {evs ev : RsEv} : RSys.Run P k s evs s' → s'.ctr.crashed = false → RSys.Step P k s' ev s'' →
      RSys.Run P k s { c := evs.c ++ ev.c, l := evs.l ++ ev.l } s''

/-- client.go:98-100, manager.go:310, discovery.go:52: the loop of a link that was just made, in a container with any history. -/
structure RSys.Init (P : LinkPolicy) (s : RSys) (past : List CtrEv) : Prop where
  run : Ctr.Run P {} (past ++ [.newLink s.link]) s.ctr
  receiver : ∀ l, s.ctr.links[s.link]? = some l → l.sender = false
  pc : s.pc = .next
  ctx : ∀ e, s.ctx = some e → e.IsCtx

end Verif.Model
