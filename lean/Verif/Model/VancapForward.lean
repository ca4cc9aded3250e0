import Verif.Model.Vancap

/-!
# The end of a capture and the port forward beside it (`/repo/vancap/main.go:229-264`)

`Vancap.Run` forwards a port in a goroutine (main.go:230-235).  That goroutine assigns the variable `err` of `Run`, and `f, err := …`, `resp, err := …` and
`fLen, err := …` of main.go:244, 251, 258 assign the same variable (they are in the scope of main.go:100, so `:=` only declares the other variable).
Here the two goroutines run side by side; every read and write of `err` is a step of its own.

Simplifications: reads and writes of `err` are atomic (Go promises less for a race on an interface value); what `ForwardPorts` returns, and when, is up to the environment; when
`http.Client.Do` fails the response is nil.
-/
namespace Verif.Model
open Verif

/-- Where `Run` is. -/
inductive VfPC where
  /-- main.go:236-242 -/
  | selecting
  /-- main.go:244 -/
  | creating
  /-- main.go:245, with `f != nil` -/
  | created (f : Bool)
  /-- main.go:251 -/
  | requesting (f : Bool)
  /-- main.go:252, with the body of the response; `none`: the response is nil -/
  | requested (f : Bool) (resp : Option String)
  /-- main.go:258 -/
  | copying (f : Bool) (body : String)
  /-- main.go:259 -/
  | copied
  /-- `Run` has returned or panicked; the deferred functions are running -/
  | over (r : Res Unit)
deriving DecidableEq

/-- Where the goroutine of main.go:230-235 is. -/
inductive FwPC where
  /-- main.go:232, in `ForwardPorts` -/
  | forwarding
  /-- main.go:232, before `err != nil` -/
  | testing
  /-- main.go:233, before `err` is read -/
  | sending
  | ended
deriving DecidableEq

structure Vf where
  /-- the variable of main.go:100; nil after main.go:225-228 -/
  err : Option String := none
  pc : VfPC := .selecting
  fw : FwPC := .forwarding
  /-- `readyChan` is closed -/
  ready : Bool := false
  /-- the context has ended -/
  ctxDone : Bool := false
  /-- `forwardErr`, which has room for one -/
  forwardErr : Option (Option String) := none
  /-- what happens to the output file, in order -/
  effs : List VancapEff := []
deriving DecidableEq

inductive VfEv where
  /-- the forwarder is ready -/
  | ready
  /-- the context ends -/
  | interrupt
  /-- `ForwardPorts` returns, and the result is assigned to `err` -/
  | forwardReturns (r : Option String)
  /-- main.go:232, the test -/
  | forwardTest
  /-- main.go:233 -/
  | forwardSend
  /-- main.go:236-242: a case is chosen -/
  | chosen (c : Forward)
  /-- main.go:244: whether the file is created -/
  | create (ok : Bool)
  /-- main.go:251: the answer -/
  | request (resp : Option (Nat × String))
  /-- main.go:258: where copying fails -/
  | copy (fails : Option Nat)
  /-- main.go:245, 252, 259: `err` is tested -/
  | test
deriving DecidableEq

inductive Vf.Step : Vf → VfEv → Vf → Prop where
  /-- client-go portforward.go: `close(pf.Ready)`, before ForwardPorts returns -/
  | ready {s : Vf} : s.fw = .forwarding → s.ready = false → Vf.Step s .ready { s with ready := true }
  | interrupt {s : Vf} : s.ctxDone = false → Vf.Step s .interrupt { s with ctxDone := true }
  /-- main.go:232: the assignment -/
  | forwardReturns {s : Vf} (r : Option String) : s.fw = .forwarding → Vf.Step s (.forwardReturns r) { s with err := r, fw := .testing }
  /-- main.go:232: the condition reads `err` again -/
  | forwardTest {s : Vf} : s.fw = .testing → Vf.Step s .forwardTest { s with fw := if s.err.isSome then .sending else .ended }
  /-- main.go:233 reads it once more -/
  | forwardSend {s : Vf} : s.fw = .sending → Vf.Step s .forwardSend { s with fw := .ended, forwardErr := some s.err }
  /-- main.go:237 -/
  | chooseReady {s : Vf} : s.pc = .selecting → s.ready = true → Vf.Step s (.chosen .ready) { s with pc := .creating }
  /-- main.go:238-239 -/
  | chooseCancelled {s : Vf} : s.pc = .selecting → s.ctxDone = true → Vf.Step s (.chosen .cancelled) { s with pc := .over (.err "vancap interrupted") }
  /-- main.go:240-241 -/
  | chooseFailed {s : Vf} {e : Option String} : s.pc = .selecting → s.forwardErr = some e →
      Vf.Step s (.chosen .failed) { s with forwardErr := none, pc := .over (.err "vancap port forward error") }
  /-- main.go:244: `os.Create` empties the file if it succeeds -/
  | create {s : Vf} (ok : Bool) (m : String) : s.pc = .creating →
      Vf.Step s (.create ok) { s with err := if ok then none else some m, pc := .created ok, effs := if ok then s.effs ++ [.truncated] else s.effs }
  /-- main.go:245-246 -/
  | createdErr {s : Vf} {f : Bool} : s.pc = .created f → s.err.isSome = true → Vf.Step s .test { s with pc := .over (.err "failed to create output file") }
  /-- main.go:245 -/
  | createdOk {s : Vf} {f : Bool} : s.pc = .created f → s.err = none → Vf.Step s .test { s with pc := .requesting f }
  /-- main.go:250-251 -/
  | request {s : Vf} {f : Bool} (resp : Option (Nat × String)) (m : String) : s.pc = .requesting f →
      Vf.Step s (.request resp) { s with err := if resp.isSome then none else some m, pc := .requested f (resp.map (·.2)) }
  /-- main.go:252-253 -/
  | requestedErr {s : Vf} {f : Bool} {resp : Option String} : s.pc = .requested f resp → s.err.isSome = true →
      Vf.Step s .test { s with pc := .over (.err "error requesting vanflow capture") }
  /-- main.go:255: `resp.Body` of a nil response -/
  | requestedNil {s : Vf} {f : Bool} : s.pc = .requested f none → s.err = none → Vf.Step s .test { s with pc := .over (.panic "nil pointer dereference") }
  /-- main.go:252-257 -/
  | requestedOk {s : Vf} {f : Bool} {body : String} : s.pc = .requested f (some body) → s.err = none → Vf.Step s .test { s with pc := .copying f body }
  /-- main.go:258: the whole body is copied -/
  | copyOk {s : Vf} {body : String} : s.pc = .copying true body →
      Vf.Step s (.copy none) { s with err := none, pc := .copied, effs := s.effs ++ [.wrote body] }
  /-- main.go:258: copying ends early, by a failure to read or to write -/
  | copyFails {s : Vf} {body : String} (n : Nat) (m : String) : s.pc = .copying true body →
      Vf.Step s (.copy (some n)) { s with err := some m, pc := .copied, effs := s.effs ++ [.wrote (String.ofList (body.toList.take n))] }
  /-- main.go:258: the methods of a nil `*os.File` return `ErrInvalid` -/
  | copyInvalid {s : Vf} {body : String} : s.pc = .copying false body →
      Vf.Step s (.copy (some 0)) { s with err := some "invalid argument", pc := .copied }
  /-- main.go:259-260 -/
  | copiedErr {s : Vf} : s.pc = .copied → s.err.isSome = true → Vf.Step s .test { s with pc := .over (.err "error writing capture file") }
  /-- main.go:259-264 -/
  | copiedOk {s : Vf} : s.pc = .copied → s.err = none → Vf.Step s .test { s with pc := .over (.ok ()) }

/-- `Run` from main.go:229 on. -/
inductive Vf.Run : Vf → List VfEv → Vf → Prop where
  | nil {s : Vf} : Vf.Run s [] s
  | snoc {s s' s'' : Vf} {evs : List VfEv} {ev : VfEv} : Vf.Run s evs s' → Vf.Step s' ev s'' → Vf.Run s (evs ++ [ev]) s''

end Verif.Model
