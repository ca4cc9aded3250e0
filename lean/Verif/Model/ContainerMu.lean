import Verif.Model.Container

/-!
# `/repo/session/container.go`: what takes time

`Verif/Model/Container.lean` takes attaching an endpoint, closing one, and closing the previous connection for single steps.  Here each of them begins and ends,
and other goroutines run in between: an operation holds `r.mu` from line 358 (372) until go-amqp has answered, `Close` holds it until the receiver is closed
(lines 448-455), and the goroutine of `Start` closes the previous connection (line 188) after the new session is published (lines 183-186), and the last
one (line 219) after the container has ended.  The fields are those of `Ctr`; the steps that take no time are those of `Ctr.Step`.
-/
namespace Verif.Model
open Verif

structure CtrF where
  c : Ctr := {}
  /-- lines 188, 219: in `prevSessionTeardown`, for the session of this generation -/
  closing : Option Nat := none
  /-- lines 364, 378: the link, the operation and the generation of the session asked for an endpoint; `r.mu` of the link is held -/
  attaching : List (Nat × Nat × Nat) := []
  /-- line 454: the link and its endpoint; `r.mu` of the link is held -/
  closings : List (Nat × Nat) := []

/-- `r.mu` of link `i` is free. -/
def CtrF.free (s : CtrF) (i : Nat) : Prop := (∀ o g, (i, o, g) ∉ s.attaching) ∧ ∀ e, (i, e) ∉ s.closings

inductive FEv where
  /-- as in `Verif/Model/Container.lean`; `use` and `fail` of an attachment are when go-amqp has answered -/
  | ev (e : CtrEv)
  /-- an operation asks go-amqp for an endpoint -/
  | attaching (o : Nat)
  /-- a receiver has been closed by `Close` of link `i` -/
  | closed (i : Nat)
  /-- the connection of generation `g` has been closed -/
  | tornDown (g : Nat)
deriving DecidableEq

/-- What the goroutine of `Start` does that takes no time. -/
def CtrEv.ofLoop : CtrEv → Bool
  | .start | .dialFail | .dialOk | .sessionFail | .dropped _ | .restart _ | .interrupted | .retry | .giveUp | .handler .. | .handlerReenters | .again | .finishing => true
  | _ => false

/-- What the callers do that takes no time and needs no `r.mu`. -/
def CtrEv.ofCaller : CtrEv → Bool
  | .cancel _ | .onError _ | .newLink _ | .cancelOp .. => true
  | _ => false

/-- Where an operation takes `r.mu` for a moment: lines 294, 307 and 352. -/
def OpPC.short : OpPC → Bool
  | .start | .got _ | .clearing _ => true
  | _ => false

/-- What an operation does without `r.mu`. -/
def CtrF.opEvent (s : CtrF) : CtrEv → Prop
  | .step o => ∀ op, s.c.ops[o]? = some op → op.pc.short = false
  | .reported .. | .retryNext _ | .ret .. => True
  | _ => False

inductive CtrF.Step (P : LinkPolicy) : CtrF → FEv → CtrF → Prop where
  | caller {s : CtrF} {ev : CtrEv} {c' : Ctr} : ev.ofCaller = true → Ctr.Step P s.c ev c' → CtrF.Step P s (.ev ev) { s with c := c' }
  /-- the goroutine of Start is not in `prevSessionTeardown` -/
  | loop {s : CtrF} {ev : CtrEv} {c' : Ctr} : ev.ofLoop = true → s.closing = none → Ctr.Step P s.c ev c' → CtrF.Step P s (.ev ev) { s with c := c' }
  /-- container.go:181-186 -/
  | publish {s : CtrF} {k : Nat} : s.c.loop = .opening k → s.closing = none →
      CtrF.Step P s (.ev (.session (s.c.gen + 1)))
        { s with c := { s.c with conns := s.c.conns.modify k fun x => { x with gen := some (s.c.gen + 1) }, gen := s.c.gen + 1, loop := .serving }, closing := some s.c.gen }
  /-- container.go:219-222, 231 -/
  | ended {s : CtrF} {c' : Ctr} : s.closing = none → Ctr.Step P s.c .ended c' →
      CtrF.Step P s (.ev .ended) { s with c := { s.c with loop := .ended }, closing := some s.c.gen }
  /-- container.go:189-192 -/
  | tornDown {s : CtrF} {g : Nat} : s.closing = some g → CtrF.Step P s (.tornDown g) { s with c := s.c.teardown g, closing := none }
  /-- an operation is called; a caller that does not close links in use does not use links being closed either -/
  | call {s : CtrF} {i o : Nat} {c' : Ctr} : (P.closeInUse = false → ∀ e, (i, e) ∉ s.closings) → Ctr.Step P s.c (.call i o) c' →
      CtrF.Step P s (.ev (.call i o)) { s with c := c' }
  | op {s : CtrF} {ev : CtrEv} {c' : Ctr} : s.opEvent ev → Ctr.Step P s.c ev c' → CtrF.Step P s (.ev ev) { s with c := c' }
  /-- a call of go-amqp fails -/
  | useFail {s : CtrF} {o : Nat} {op : LOp} {ep : Nat} {x : Ep} (e : GoErr) : s.c.ops[o]? = some op → op.pc = .inCall ep → op.kind ≠ .accept → s.c.eps[ep]? = some x →
      errorsIs (some e) (some .linkClosed) = false →
      CtrF.Step P s (.ev (.fail op.link x.gen)) { s with c := s.c.setOp o (.failing (.wrap "error" e)) }
  /-- container.go:294-296, 307-309, 352-354 -/
  | short {s : CtrF} {o : Nat} {op : LOp} {c' : Ctr} : s.c.ops[o]? = some op → op.pc.short = true → s.free op.link → Ctr.Step P s.c (.step o) c' →
      CtrF.Step P s (.ev (.step o)) { s with c := c' }
  /-- container.go:358-363, 372-377 -/
  | reuse {s : CtrF} {o : Nat} {op : LOp} {l : Lnk} {ep : Nat} {x : Ep} : s.c.ops[o]? = some op → op.pc = .ready → s.free op.link → s.c.links[op.link]? = some l →
      l.ep = some ep → l.epGen = l.currGen → s.c.eps[ep]? = some x → CtrF.Step P s (.ev (.use op.link x.gen)) { s with c := s.c.setOp o (.inCall ep) }
  /-- container.go:358-364, 372-378: a method of a nil session -/
  | noSession {s : CtrF} {o : Nat} {op : LOp} {l : Lnk} : s.c.ops[o]? = some op → op.pc = .ready → s.free op.link → s.c.links[op.link]? = some l →
      ¬ (l.ep.isSome = true ∧ l.epGen = l.currGen) → l.curr = none → CtrF.Step P s (.ev .panic) { s with c := { s.c with crashed := true } }
  /-- container.go:358-364, 372-378 -/
  | attaching {s : CtrF} {o : Nat} {op : LOp} {l : Lnk} {g : Nat} : s.c.ops[o]? = some op → op.pc = .ready → s.free op.link → s.c.links[op.link]? = some l →
      ¬ (l.ep.isSome = true ∧ l.epGen = l.currGen) → l.curr = some g → CtrF.Step P s (.attaching o) { s with attaching := s.attaching ++ [(op.link, o, g)] }
  /-- container.go:368-369, 382-383; the session is open as long as it is not torn down -/
  | attached {s : CtrF} {i o g : Nat} {l : Lnk} : (i, o, g) ∈ s.attaching → s.c.links[i]? = some l →
      CtrF.Step P s (.ev (.use i g))
        { s with c := (({ s.c with eps := s.c.eps ++ [{ gen := g, link := i, open_ := s.c.sessionOpen g || decide (s.closing = some g) }] } : Ctr).setLink i
                    { l with ep := some s.c.eps.length, epGen := l.currGen } |>.setOp o (.inCall s.c.eps.length))
                 attaching := s.attaching.filter fun a => a.1 != i }
  /-- container.go:365-367, 318-319 -/
  | attachFail {s : CtrF} {i o g : Nat} (e : GoErr) : (i, o, g) ∈ s.attaching → errorsIs (some e) (some .linkClosed) = false →
      CtrF.Step P s (.ev (.fail i g)) { s with c := s.c.setOp o (.failing (.wrap "create error" e)), attaching := s.attaching.filter fun a => a.1 != i }
  /-- container.go:448-452, 456: there is no receiver to close -/
  | close {s : CtrF} {l : Lnk} (i : Nat) : s.c.links[i]? = some l → s.free i → (P.closeInUse = false → s.c.inUse i = false) → (l.ep = none ∨ l.sender = true) →
      CtrF.Step P s (.ev (.close i)) { s with c := s.c.setLink i { l with closed := true, curr := none, ep := none } }
  /-- container.go:448-454 -/
  | closing {s : CtrF} {l : Lnk} {e : Nat} (i : Nat) : s.c.links[i]? = some l → s.free i → (P.closeInUse = false → s.c.inUse i = false) → l.ep = some e → l.sender = false →
      CtrF.Step P s (.ev (.close i)) { s with c := s.c.setLink i { l with closed := true, curr := none, ep := none }, closings := s.closings ++ [(i, e)] }
  /-- container.go:454-455 -/
  | closed {s : CtrF} {i e : Nat} : (i, e) ∈ s.closings →
      CtrF.Step P s (.closed i)
        { s with c := { s.c with eps := s.c.eps.modify e fun x => { x with open_ := false } }, closings := s.closings.filter fun a => a != (i, e) }

inductive CtrF.Run (P : LinkPolicy) : CtrF → List FEv → CtrF → Prop where
  | nil {s : CtrF} : CtrF.Run P s [] s
  | snoc {s s' s'' : CtrF} {evs : List FEv} {ev : FEv} : CtrF.Run P s evs s' → s'.c.crashed = false → CtrF.Step P s' ev s'' → CtrF.Run P s (evs ++ [ev]) s''

end Verif.Model
