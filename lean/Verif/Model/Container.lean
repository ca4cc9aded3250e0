import Verif.Model.Ctx

/-!
# Model of `/repo/session/container.go`

A transition system of the goroutine started by `Start` with `backoff.RetryNotify` (v4.2.1), the links made by `NewReceiver` and `NewSender`, and the operations
(`Next`, `Accept`, `Send`, `Close`) that other goroutines perform on them.  A step is what happens between two points where another goroutine can interfere: a
critical section of `c.mu` or `r.mu`, a channel operation, or a call of go-amqp.

The AMQP library is the environment: dialling, opening a session, attaching and using an endpoint succeed or fail at will, with any error but `errLinkClosed`, a variable of
the package that only line 298 returns.
A session is identified with its generation.  Not modelled: `notifyOK` (it only resets the backoff), durations, and that an attach or `Close` of an endpoint
takes time while it holds `r.mu`.
-/
namespace Verif.Model
open Verif

/-- container.go:19-29: the credit passed on to go-amqp for a requested one (before the conversion to int32). -/
def receiverCredit (credit : Int) : Int := if credit ≤ 0 then credit else 0

/-- Go's conversion of an int to int32. -/
def toInt32 (n : Int) : Int := (n + 2147483648) % 4294967296 - 2147483648

/-- container.go:23-29, 364: the credit a receiver is attached with. -/
def attachCredit (credit : Int) : Int := toInt32 (toInt32 (receiverCredit credit))

/-- container.go:106, 105 -/
def sessionErrorsCap : Nat := 32

/-- An endpoint (amqp.Receiver or amqp.Sender) that go-amqp has attached. -/
structure Ep where
  gen : Nat
  link : Nat
  open_ : Bool := true
deriving DecidableEq

/-- A connection. -/
structure Conn where
  /-- the generation of its session, when one was opened -/
  gen : Option Nat := none
  open_ : Bool := true
deriving DecidableEq

/-- container.go:271-289.  A link is used as a receiver or as a sender; `ep` is `rcv` or `snd`, an index into the endpoints. -/
structure Lnk where
  sender : Bool
  closed : Bool := false
  currGen : Nat
  curr : Option Nat
  epGen : Nat := 0
  ep : Option Nat := none
deriving DecidableEq

inductive OpKind where
  | next | accept | send
deriving DecidableEq, Repr

inductive OpPC where
  /-- line 294 -/
  | start
  /-- line 132 -/
  | waiting (prev : Nat)
  /-- line 138: in the select, with the channel `hasNext` of the generation `prev` -/
  | parked (prev : Nat)
  /-- line 142: `hasNext` was closed; line 132 again -/
  | waking (prev : Nat)
  /-- line 307, with the session of generation `g` -/
  | got (g : Nat)
  /-- lines 359, 373 -/
  | ready
  /-- lines 321, 335: calling go-amqp on an endpoint -/
  | inCall (ep : Nat)
  /-- line 342 -/
  | failing (e : GoErr)
  /-- line 348 -/
  | reporting (g : Nat) (e : GoErr)
  /-- line 352 -/
  | clearing (e : GoErr)
  /-- line 398 and the ends of Accept and Send -/
  | leaving (r : Option GoErr)
  | done (r : Option GoErr)
deriving DecidableEq

/-- An operation in progress. -/
structure LOp where
  link : Nat
  kind : OpKind
  /-- `ctx.Err()` -/
  ctx : Option GoErr := none
  pc : OpPC := .start
deriving DecidableEq

def LOp.active (o : LOp) : Bool := match o.pc with | .done _ => false | _ => true

/-- The goroutine of Start. -/
inductive LoopPC where
  | notStarted
  /-- line 173 -/
  | dialing
  /-- line 177 -/
  | opening (conn : Nat)
  /-- line 195 -/
  | serving
  /-- the operation of RetryNotify has returned an error -/
  | failed (e : GoErr)
  /-- lines 211-216, holding `c.mu` -/
  | notifying (e : GoErr) (left : List Nat)
  /-- a handler has called a method of the container and waits for `c.mu` -/
  | selfLocked
  /-- RetryNotify waits for the time to try again -/
  | waiting
  /-- lines 220-221 -/
  | gaveUp (e : GoErr)
  /-- lines 224-229, holding `c.mu` -/
  | finishing (e : GoErr) (left : List Nat)
  | ended
deriving DecidableEq

structure Ctr where
  /-- `c.gen`; 0 is no session -/
  gen : Nat := 0
  loop : LoopPC := .notStarted
  /-- the error of the context given to Start -/
  ctx : Option GoErr := none
  /-- `c.sessionErrors` -/
  errs : List (Nat × GoErr) := []
  handlers : List Nat := []
  links : List Lnk := []
  ops : List LOp := []
  eps : List Ep := []
  conns : List Conn := []
  crashed : Bool := false

inductive CtrEv where
  | start
  | cancel (e : GoErr)
  | onError (h : Nat)
  | dialFail
  | dialOk
  | sessionFail
  /-- a session of generation `g` is published -/
  | session (g : Nat)
  /-- the container reads an error of another generation -/
  | dropped (g : Nat)
  /-- the container reads an error of its generation: the session is given up -/
  | restart (g : Nat)
  /-- line 197 -/
  | interrupted
  /-- NextBackOff returned a duration -/
  | retry
  /-- NextBackOff returned Stop -/
  | giveUp
  /-- a handler is called; `retryable` says whether with an errSessionRestart -/
  | handler (h : Nat) (retryable : Bool)
  | handlerReenters
  | again
  /-- the handlers are about to be told that the container ends -/
  | finishing
  | ended
  | newLink (i : Nat)
  | call (i : Nat) (o : Nat)
  | cancelOp (o : Nat) (e : GoErr)
  | close (i : Nat)
  /-- an operation on link `i` calls go-amqp with a session of generation `g` -/
  | use (i g : Nat)
  /-- such a call fails -/
  | fail (i g : Nat)
  /-- an error is put in the channel, for generation `g` -/
  | reported (i g : Nat)
  | ret (o : Nat) (r : Option GoErr)
  /-- `Next` calls itself -/
  | retryNext (o : Nat)
  | panic
  /-- other steps of an operation -/
  | step (o : Nat)
deriving DecidableEq

/-- Which uses of links the environment makes: operations on one link that overlap, `Close` while an operation is in progress. -/
structure LinkPolicy where
  overlap : Bool
  closeInUse : Bool

/-- container.go:183, 212, 225: the goroutine of Start holds `c.mu` -/
def Ctr.muHeld (s : Ctr) : Bool := match s.loop with | .notifying .. | .selfLocked | .finishing .. => true | _ => false

def Ctr.setOp (s : Ctr) (o : Nat) (pc : OpPC) : Ctr := { s with ops := s.ops.modify o fun x => { x with pc := pc } }

def Ctr.setLink (s : Ctr) (i : Nat) (l : Lnk) : Ctr := { s with links := s.links.set i l }

/-- An operation on link `i` is in progress. -/
def Ctr.inUse (s : Ctr) (i : Nat) : Bool := s.ops.any fun o => o.link == i && o.active

/-- container.go:188-192: the connection of generation `g` and everything on it is closed -/
def Ctr.teardown (s : Ctr) (g : Nat) : Ctr :=
  { s with conns := s.conns.map fun c => if c.gen = some g then { c with open_ := false } else c
           eps := s.eps.map fun e => if e.gen = g then { e with open_ := false } else e }

/-- The session of generation `g` has not been closed by the container. -/
def Ctr.sessionOpen (s : Ctr) (g : Nat) : Bool := decide (g = s.gen ∧ s.loop ≠ .ended)

/-- Which kinds of operations a link offers. -/
def OpKind.fits (k : OpKind) (sender : Bool) : Bool := match k with | .send => sender | _ => !sender

inductive Ctr.Step (P : LinkPolicy) : Ctr → CtrEv → Ctr → Prop where
  /-- container.go:157-171 -/
  | start {s : Ctr} : s.loop = .notStarted → Ctr.Step P s .start { s with loop := .dialing }
  | cancel {s : Ctr} (e : GoErr) : e.IsCtx → s.ctx = none → Ctr.Step P s (.cancel e) { s with ctx := some e }
  /-- container.go:125-129 -/
  | onError {s : Ctr} (h : Nat) : s.muHeld = false → Ctr.Step P s (.onError h) { s with handlers := s.handlers ++ [h] }
  /-- container.go:173-176 -/
  | dialFail {s : Ctr} (msg : String) : s.loop = .dialing → Ctr.Step P s .dialFail { s with loop := .failed (.other msg) }
  | dialOk {s : Ctr} : s.loop = .dialing → Ctr.Step P s .dialOk { s with loop := .opening s.conns.length, conns := s.conns ++ [{}] }
  /-- container.go:178-180 -/
  | sessionFail {s : Ctr} {c : Nat} (msg : String) : s.loop = .opening c → Ctr.Step P s .sessionFail { s with loop := .failed (.other msg) }
  /-- container.go:181-192 -/
  | session {s : Ctr} {c : Nat} : s.loop = .opening c →
      Ctr.Step P s (.session (s.gen + 1))
        { ({ s with conns := s.conns.modify c fun x => { x with gen := some (s.gen + 1) } } : Ctr).teardown s.gen with gen := s.gen + 1, loop := .serving }
  /-- container.go:202-206: an error of another generation is ignored -/
  | dropped {s : Ctr} {g : Nat} {e : GoErr} {rest : List (Nat × GoErr)} : s.loop = .serving → s.errs = (g, e) :: rest → g ≠ s.gen →
      Ctr.Step P s (.dropped g) { s with errs := rest }
  /-- container.go:203-204 -/
  | restart {s : Ctr} {e : GoErr} {rest : List (Nat × GoErr)} (msg : String) : s.loop = .serving → s.errs = (s.gen, e) :: rest →
      Ctr.Step P s (.restart s.gen) { s with errs := rest, loop := .failed (.other msg) }
  /-- container.go:196-197 -/
  | interrupted {s : Ctr} {e : GoErr} : s.loop = .serving → s.ctx = some e → Ctr.Step P s .interrupted { s with loop := .failed e }
  /-- backoff context.go NextBackOff: Stop, the context has ended; retry.go: its error is returned; container.go:219-222 -/
  | stopFailed {s : Ctr} {e err : GoErr} : s.loop = .failed err → s.ctx = some e → Ctr.Step P s .ended ({ s with loop := .ended }.teardown s.gen)
  /-- NextBackOff gives a duration; container.go:210-216 -/
  | retry {s : Ctr} {err : GoErr} : s.loop = .failed err → s.ctx = none →
      Ctr.Step P s .retry { s with loop := .notifying err s.handlers }
  /-- NextBackOff gives Stop because the strategy ends -/
  | giveUp {s : Ctr} {err : GoErr} : s.loop = .failed err → s.ctx = none → Ctr.Step P s .giveUp { s with loop := .gaveUp err }
  /-- container.go:214 -/
  | notify {s : Ctr} {err : GoErr} {h : Nat} {left : List Nat} : s.loop = .notifying err (h :: left) →
      Ctr.Step P s (.handler h true) { s with loop := .notifying err left }
  /-- a handler calls a method that takes `c.mu` -/
  | reenter {s : Ctr} {err : GoErr} {left : List Nat} : s.loop = .notifying err left → Ctr.Step P s .handlerReenters { s with loop := .selfLocked }
  /-- container.go:216 -/
  | notified {s : Ctr} {err : GoErr} : s.loop = .notifying err [] → Ctr.Step P s .again { s with loop := .waiting }
  /-- retry.go: the wait is over -/
  | again {s : Ctr} : s.loop = .waiting → Ctr.Step P s .again { s with loop := .dialing }
  /-- retry.go: the context ends during the wait; container.go:219-222 -/
  | stopWaiting {s : Ctr} {e : GoErr} : s.loop = .waiting → s.ctx = some e → Ctr.Step P s .ended ({ s with loop := .ended }.teardown s.gen)
  /-- backoff retry.go: after Stop the context is asked once more, and its error is returned if it has ended by then; container.go:219-222 -/
  | stopGaveUp {s : Ctr} {e err : GoErr} : s.loop = .gaveUp err → s.ctx = some e → Ctr.Step P s .ended ({ s with loop := .ended }.teardown s.gen)
  /-- container.go:224-226 -/
  | finish {s : Ctr} {err : GoErr} : s.loop = .gaveUp err → errorsIs (some err) s.ctx = false →
      Ctr.Step P s .finishing { s with loop := .finishing err s.handlers }
  /-- container.go:228 -/
  | final {s : Ctr} {err : GoErr} {h : Nat} {left : List Nat} : s.loop = .finishing err (h :: left) →
      Ctr.Step P s (.handler h false) { s with loop := .finishing err left }
  /-- the deferred Unlock and prevSessionTeardown -/
  | finished {s : Ctr} {err : GoErr} : s.loop = .finishing err [] → Ctr.Step P s .ended ({ s with loop := .ended }.teardown s.gen)
  /-- container.go:255-269 -/
  | newLink {s : Ctr} (sender : Bool) : s.muHeld = false →
      Ctr.Step P s (.newLink s.links.length)
        { s with links := s.links ++ [{ sender := sender, currGen := s.gen, curr := if s.gen = 0 then none else some s.gen }] }
  /-- an operation is called, with a context that may have ended already -/
  | call {s : Ctr} {l : Lnk} (i : Nat) (k : OpKind) (ctx : Option GoErr) : s.links[i]? = some l → k.fits l.sender = true → (∀ e, ctx = some e → e.IsCtx) →
      (P.overlap = false → s.inUse i = false) →
      Ctr.Step P s (.call i s.ops.length) { s with ops := s.ops ++ [{ link := i, kind := k, ctx := ctx }] }
  | cancelOp {s : Ctr} {op : LOp} (o : Nat) (e : GoErr) : e.IsCtx → s.ops[o]? = some op → op.ctx = none →
      Ctr.Step P s (.cancelOp o e) { s with ops := s.ops.set o { op with ctx := some e } }
  /-- container.go:447-457; only an endpoint that is a receiver is closed -/
  | close {s : Ctr} {l : Lnk} (i : Nat) : s.links[i]? = some l → (P.closeInUse = false → s.inUse i = false) →
      Ctr.Step P s (.close i)
        { s.setLink i { l with closed := true, curr := none, ep := none } with
            eps := match l.ep, l.sender with
              | some e, false => s.eps.modify e fun x => { x with open_ := false }
              | _, _ => s.eps }
  /-- container.go:294-299 -/
  | startClosed {s : Ctr} {o : Nat} {op : LOp} {l : Lnk} : s.ops[o]? = some op → op.pc = .start → s.links[op.link]? = some l → l.closed = true →
      Ctr.Step P s (.step o) (s.setOp o (.failing (.wrap "session await error" .linkClosed)))
  /-- container.go:300-302 -/
  | startHas {s : Ctr} {o : Nat} {op : LOp} {l : Lnk} {g : Nat} : s.ops[o]? = some op → op.pc = .start → s.links[op.link]? = some l → l.closed = false →
      l.curr = some g → Ctr.Step P s (.step o) (s.setOp o .ready)
  /-- container.go:303 -/
  | startWait {s : Ctr} {o : Nat} {op : LOp} {l : Lnk} : s.ops[o]? = some op → op.pc = .start → s.links[op.link]? = some l → l.closed = false →
      l.curr = none → Ctr.Step P s (.step o) (s.setOp o (.waiting l.currGen))
  /-- container.go:132-137; with `c.sess` and `c.gen` as they are then -/
  | waited {s : Ctr} {o : Nat} {op : LOp} {prev : Nat} : s.ops[o]? = some op → op.pc = .waiting prev → s.muHeld = false → s.gen ≠ prev →
      Ctr.Step P s (.step o) (s.setOp o (.got s.gen))
  /-- container.go:132-138 -/
  | park {s : Ctr} {o : Nat} {op : LOp} {prev : Nat} : s.ops[o]? = some op → op.pc = .waiting prev → s.muHeld = false → s.gen = prev →
      Ctr.Step P s (.step o) (s.setOp o (.parked prev))
  /-- container.go:141-142: the channel was closed when the generation changed (lines 183-186) -/
  | wake {s : Ctr} {o : Nat} {op : LOp} {prev : Nat} : s.ops[o]? = some op → op.pc = .parked prev → s.gen ≠ prev →
      Ctr.Step P s (.step o) (s.setOp o (.waking prev))
  /-- container.go:132-137, after the channel was closed; that the generation is still `prev` then does not happen (`waking_lt` in Proofs/Container.lean) -/
  | woken {s : Ctr} {o : Nat} {op : LOp} {prev : Nat} : s.ops[o]? = some op → op.pc = .waking prev → s.muHeld = false → s.gen ≠ prev →
      Ctr.Step P s (.step o) (s.setOp o (.got s.gen))
  /-- container.go:139-140 -/
  | waitCancelled {s : Ctr} {o : Nat} {op : LOp} {prev : Nat} {e : GoErr} : s.ops[o]? = some op → op.pc = .parked prev →
      op.ctx = some e → Ctr.Step P s (.step o) (s.setOp o (.failing (.wrap "session await error" e)))
  /-- container.go:307-309 -/
  | take {s : Ctr} {o : Nat} {op : LOp} {l : Lnk} {g : Nat} : s.ops[o]? = some op → op.pc = .got g → s.links[op.link]? = some l →
      Ctr.Step P s (.step o) ((s.setLink op.link { l with curr := some g, currGen := g }).setOp o .ready)
  /-- container.go:361-363, 375-377 -/
  | reuse {s : Ctr} {o : Nat} {op : LOp} {l : Lnk} {ep : Nat} {x : Ep} : s.ops[o]? = some op → op.pc = .ready → s.links[op.link]? = some l →
      l.ep = some ep → l.epGen = l.currGen → s.eps[ep]? = some x → Ctr.Step P s (.use op.link x.gen) (s.setOp o (.inCall ep))
  /-- container.go:364, 378: a method of a nil session -/
  | noSession {s : Ctr} {o : Nat} {op : LOp} {l : Lnk} : s.ops[o]? = some op → op.pc = .ready → s.links[op.link]? = some l →
      ¬ (l.ep.isSome = true ∧ l.epGen = l.currGen) → l.curr = none → Ctr.Step P s .panic { s with crashed := true }
  /-- container.go:364-369, 378-383 -/
  | attach {s : Ctr} {o : Nat} {op : LOp} {l : Lnk} {g : Nat} : s.ops[o]? = some op → op.pc = .ready → s.links[op.link]? = some l →
      ¬ (l.ep.isSome = true ∧ l.epGen = l.currGen) → l.curr = some g →
      Ctr.Step P s (.use op.link g)
        (({ s with eps := s.eps ++ [{ gen := g, link := op.link, open_ := s.sessionOpen g }] } : Ctr).setLink op.link { l with ep := some s.eps.length, epGen := l.currGen } |>.setOp o
          (.inCall s.eps.length))
  /-- container.go:364-367, 318-319 -/
  | attachFail {s : Ctr} {o : Nat} {op : LOp} {l : Lnk} {g : Nat} (e : GoErr) : s.ops[o]? = some op → op.pc = .ready → s.links[op.link]? = some l →
      ¬ (l.ep.isSome = true ∧ l.epGen = l.currGen) → l.curr = some g → errorsIs (some e) (some .linkClosed) = false →
      Ctr.Step P s (.fail op.link g) (s.setOp o (.failing (.wrap "create error" e)))
  /-- container.go:391-396, 411, 432: the call of go-amqp succeeds -/
  | useOk {s : Ctr} {o : Nat} {op : LOp} {ep : Nat} : s.ops[o]? = some op → op.pc = .inCall ep → Ctr.Step P s (.step o) (s.setOp o (.leaving none))
  /-- it fails -/
  | useFail {s : Ctr} {o : Nat} {op : LOp} {ep : Nat} {x : Ep} (e : GoErr) : s.ops[o]? = some op → op.pc = .inCall ep → op.kind ≠ .accept → s.eps[ep]? = some x →
      errorsIs (some e) (some .linkClosed) = false →
      Ctr.Step P s (.fail op.link x.gen) (s.setOp o (.failing (.wrap "error" e)))
  /-- container.go:411-418: errors of accepting are only returned -/
  | acceptFail {s : Ctr} {o : Nat} {op : LOp} {ep : Nat} (e : GoErr) : s.ops[o]? = some op → op.pc = .inCall ep → op.kind = .accept → errorsIs (some e) (some .linkClosed) = false →
      Ctr.Step P s (.step o) (s.setOp o (.leaving (some e)))
  /-- container.go:342-347 -/
  | benign {s : Ctr} {o : Nat} {op : LOp} {e : GoErr} : s.ops[o]? = some op → op.pc = .failing e →
      (errorsIs (some e) op.ctx = true ∨ errorsIs (some e) (some .linkClosed) = true) → Ctr.Step P s (.step o) (s.setOp o (.leaving (some e)))
  /-- container.go:348-351: the report is made up with the generation the link has now -/
  | prepare {s : Ctr} {o : Nat} {op : LOp} {l : Lnk} {e : GoErr} : s.ops[o]? = some op → op.pc = .failing e → errorsIs (some e) op.ctx = false →
      errorsIs (some e) (some .linkClosed) = false → s.links[op.link]? = some l →
      Ctr.Step P s (.step o) (s.setOp o (.reporting l.currGen e))
  /-- container.go:348: blocks while the channel is full -/
  | report {s : Ctr} {o : Nat} {op : LOp} {g : Nat} {e : GoErr} : s.ops[o]? = some op → op.pc = .reporting g e → s.errs.length < sessionErrorsCap →
      Ctr.Step P s (.reported op.link g) ({ s with errs := s.errs ++ [(g, e)] }.setOp o (.clearing e))
  /-- container.go:352-355 -/
  | clear {s : Ctr} {o : Nat} {op : LOp} {l : Lnk} {e : GoErr} : s.ops[o]? = some op → op.pc = .clearing e → s.links[op.link]? = some l →
      Ctr.Step P s (.step o) ((s.setLink op.link { l with curr := none, ep := none }).setOp o (.leaving (some e)))
  /-- container.go:398-399 -/
  | nextAgain {s : Ctr} {o : Nat} {op : LOp} {e : GoErr} : s.ops[o]? = some op → op.pc = .leaving (some e) → op.kind = .next → op.ctx = none →
      Ctr.Step P s (.retryNext o) (s.setOp o .start)
  /-- container.go:401, 416-425, 438-444 -/
  | ret {s : Ctr} {o : Nat} {op : LOp} {r : Option GoErr} : s.ops[o]? = some op → op.pc = .leaving r → (op.kind = .next → r = none ∨ op.ctx ≠ none) →
      Ctr.Step P s (.ret o r) (s.setOp o (.done r))

inductive Ctr.Run (P : LinkPolicy) : Ctr → List CtrEv → Ctr → Prop where
  | nil {s : Ctr} : Ctr.Run P s [] s
  | snoc {s s' s'' : Ctr} {evs : List CtrEv} {ev : CtrEv} : Ctr.Run P s evs s' → s'.crashed = false → Ctr.Step P s' ev s'' → Ctr.Run P s (evs ++ [ev]) s''

end Verif.Model
