import Verif.Model.Container

/-!
# session/container.go: `Start` called more than once

`Verif/Model/Container.lean` has one call of `Start`, and names sessions by their generation.  Here `Start` may be called again, when the container has ended or
before; each call counts its generations from 1 (container.go:169), so sessions have numbers of their own.  Simplified: a link has one operation at a time and is not
closed; what a go-amqp call does is only success or failure; the backoff is reduced to trying again or ending; error handlers and the backoff's reset are left out (they touch
none of this).
-/
namespace Verif.Model
open Verif

/-- Where a goroutine of `Start` is (container.go:168-231). -/
inductive StartPC where
  /-- in the retried function before line 181, or between two calls of it -/
  | dialing
  /-- in the loop at line 194, with this session -/
  | serving (x : Nat)
  | ended
deriving DecidableEq

structure Starter where
  /-- line 169 -/
  generation : Nat := 0
  /-- line 170: the session to tear down -/
  prev : Option Nat := none
  pc : StartPC := .dialing
deriving DecidableEq

structure Sess where
  /-- the generation it was published with (line 185) -/
  gen : Nat
  open_ : Bool := true
deriving DecidableEq

inductive SLPC where
  /-- between operations -/
  | idle
  /-- in awaitNextSession(ctx, currGen) (line 303) -/
  | awaiting
  /-- in a call of go-amqp -/
  | calling
deriving DecidableEq

/-- container.go:271-289 -/
structure SLnk where
  curr : Option Nat := none
  currGen : Nat := 0
  /-- not in the code: the session of which `currGen` is the generation -/
  last : Option Nat := none
  pc : SLPC := .idle
deriving DecidableEq

structure SCtr where
  /-- `c.gen` and `c.sess` -/
  gen : Nat := 0
  sess : Option Nat := none
  /-- all sessions opened so far -/
  sessions : List Sess := []
  starts : List Starter := []
  /-- `c.sessionErrors`: the generation, and (not in the code) the session that failed -/
  errs : List (Nat × Nat) := []
  links : List SLnk := []
deriving DecidableEq

inductive SEv where
  | start (i : Nat)
  /-- session `x` is published by the goroutine of call `i` -/
  | publish (i x : Nat)
  | dialFail (i : Nat)
  /-- the error of session `x` makes call `i` give up its session -/
  | restart (i x : Nat)
  /-- the error of session `x` is ignored by call `i` -/
  | dropped (i x : Nat)
  | ended (i : Nat)
  | newLink (l : Nat)
  | call (l : Nat)
  /-- awaitNextSession returns session `x` -/
  | got (l x : Nat)
  | cancelled (l : Nat)
  | ok (l : Nat)
  /-- a call of go-amqp with session `x` fails; it is reported -/
  | fail (l x : Nat)
deriving DecidableEq

/-- How often `Start` is called. -/
structure StartPolicy where
  /-- more than once -/
  again : Bool
  /-- while the goroutine of an earlier call runs -/
  together : Bool

def SCtr.setLink (s : SCtr) (l : Nat) (k : SLnk) : SCtr := { s with links := s.links.set l k }

def SCtr.setStart (s : SCtr) (i : Nat) (t : Starter) : SCtr := { s with starts := s.starts.set i t }

/-- container.go:188-192 -/
def SCtr.teardown (s : SCtr) : Option Nat → SCtr
  | none => s
  | some x => { s with sessions := s.sessions.modify x fun k => { k with open_ := false } }

inductive SCtr.Step (P : StartPolicy) : SCtr → SEv → SCtr → Prop where
  /-- container.go:157-171 -/
  | start {s : SCtr} : (P.again = false → s.starts = []) → (P.together = false → ∀ t ∈ s.starts, t.pc = .ended) →
      SCtr.Step P s (.start s.starts.length) { s with starts := s.starts ++ [{}] }
  /-- container.go:173-192 -/
  | publish {s : SCtr} {i : Nat} {t : Starter} : s.starts[i]? = some t → t.pc = .dialing →
      SCtr.Step P s (.publish i s.sessions.length)
        ((({ s with sessions := s.sessions ++ [{ gen := t.generation + 1 }], gen := t.generation + 1, sess := some s.sessions.length } : SCtr).teardown t.prev).setStart i
          { generation := t.generation + 1, prev := some s.sessions.length, pc := .serving s.sessions.length })
  /-- container.go:173-180 -/
  | dialFail {s : SCtr} {i : Nat} {t : Starter} : s.starts[i]? = some t → t.pc = .dialing → SCtr.Step P s (.dialFail i) s
  /-- container.go:202-204 -/
  | restart {s : SCtr} {i x : Nat} {t : Starter} {y : Nat} {rest : List (Nat × Nat)} : s.starts[i]? = some t → t.pc = .serving y → s.errs = (t.generation, x) :: rest →
      SCtr.Step P s (.restart i x) (({ s with errs := rest } : SCtr).setStart i { t with pc := .dialing })
  /-- container.go:202-206 -/
  | dropped {s : SCtr} {i x g : Nat} {t : Starter} {y : Nat} {rest : List (Nat × Nat)} : s.starts[i]? = some t → t.pc = .serving y → s.errs = (g, x) :: rest →
      g ≠ t.generation → SCtr.Step P s (.dropped i x) { s with errs := rest }
  /-- container.go:219-231: the context has ended, or the backoff -/
  | ended {s : SCtr} {i : Nat} {t : Starter} : s.starts[i]? = some t → t.pc ≠ .ended →
      SCtr.Step P s (.ended i) ((s.teardown t.prev).setStart i { t with pc := .ended })
  /-- container.go:255-269 -/
  | newLink {s : SCtr} : SCtr.Step P s (.newLink s.links.length) { s with links := s.links ++ [{ curr := s.sess, currGen := s.gen, last := s.sess }] }
  /-- container.go:294-303 -/
  | callHas {s : SCtr} {l : Nat} {k : SLnk} {x : Nat} : s.links[l]? = some k → k.pc = .idle → k.curr = some x → SCtr.Step P s (.call l) (s.setLink l { k with pc := .calling })
  | callWait {s : SCtr} {l : Nat} {k : SLnk} : s.links[l]? = some k → k.pc = .idle → k.curr = none → SCtr.Step P s (.call l) (s.setLink l { k with pc := .awaiting })
  /-- container.go:132-136, 141-142, 307-309 -/
  | got {s : SCtr} {l x : Nat} {k : SLnk} : s.links[l]? = some k → k.pc = .awaiting → s.gen ≠ k.currGen → s.sess = some x →
      SCtr.Step P s (.got l x) (s.setLink l { curr := some x, currGen := s.gen, last := some x, pc := .calling })
  /-- container.go:139-140 -/
  | cancelled {s : SCtr} {l : Nat} {k : SLnk} : s.links[l]? = some k → k.pc = .awaiting → SCtr.Step P s (.cancelled l) (s.setLink l { k with pc := .idle })
  | ok {s : SCtr} {l : Nat} {k : SLnk} : s.links[l]? = some k → k.pc = .calling → SCtr.Step P s (.ok l) (s.setLink l { k with pc := .idle })
  /-- container.go:348-355: blocks while the channel is full; `Next` then calls again -/
  | fail {s : SCtr} {l x : Nat} {k : SLnk} : s.links[l]? = some k → k.pc = .calling → k.curr = some x → s.errs.length < sessionErrorsCap →
      SCtr.Step P s (.fail l x) (({ s with errs := s.errs ++ [(k.currGen, x)] } : SCtr).setLink l { k with curr := none, pc := .idle })

inductive SCtr.Run (P : StartPolicy) : SCtr → List SEv → SCtr → Prop where
  | nil {s : SCtr} : SCtr.Run P s [] s
  | snoc {s s' s'' : SCtr} {evs : List SEv} {ev : SEv} : SCtr.Run P s evs s' → SCtr.Step P s' ev s'' → SCtr.Run P s (evs ++ [ev]) s''

end Verif.Model
