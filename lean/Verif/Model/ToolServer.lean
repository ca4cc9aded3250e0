import Verif.Basic.Res

/-!
# How the commands `serve` and `fixture` end (`/repo/cmd/vanflow-tool/serve.go:39-42, 111-120, 183-203`, `/repo/cmd/vanflow-tool/fixture.go:24-69`)

Both commands start a container, register a handler for its errors and start an HTTP server, in a different order; then they wait for their context and shut the server down.
The steps are those of the goroutine of the command, of the goroutine of `ListenAndServe`, and of the goroutine of the container (of which only the end matters here, see
`Verif/Model/Container.lean`).

Simplifications: `http.Server` is its documentation: `Shutdown` makes `ListenAndServe` return, also when called before it; it returns when no request is being answered or when its
context has ended.  Requests on connections that exist when `Shutdown` is called are counted as begun before.
-/
namespace Verif.Model
open Verif

/-- The steps before the command waits. -/
inductive ToolSetup where
  /-- serve.go:112, fixture.go:54 -/
  | startContainer
  /-- serve.go:113-120, fixture.go:55-62 -/
  | onSessionError
  /-- serve.go:191-196, fixture.go:47-52 -/
  | goServe
deriving DecidableEq, Repr

inductive ToolCmd where
  | serve | fixture
deriving DecidableEq, Repr

/-- serve.go:112-196, fixture.go:47-62: the order of the steps. -/
def ToolCmd.setup : ToolCmd → List ToolSetup
  | .serve => [.startContainer, .onSessionError, .goServe]
  | .fixture => [.goServe, .startContainer, .onSessionError]

/-- Where the command is. -/
inductive ToolPC where
  | setup (todo : List ToolSetup)
  /-- serve.go:197: `<-ctx.Done()` -/
  | waiting
  /-- before serve.go:199 -/
  | woken
  /-- before serve.go:201 -/
  | armed
  /-- serve.go:201: in `srv.Shutdown` -/
  | shutting
  /-- serve.go:202: `wg.Wait()` -/
  | joining
  | returned
deriving DecidableEq, Repr

/-- The goroutine of serve.go:191-196. -/
inductive SrvPC where
  | none
  /-- before the listener exists -/
  | spawned
  | listening
  /-- `ListenAndServe` returned another error than ErrServerClosed -/
  | failed
  /-- `ListenAndServe` returned ErrServerClosed -/
  | closed
deriving DecidableEq, Repr

/-- The goroutine of the container. -/
inductive ConPC where
  | none
  | running
  /-- the backoff has given up (container.go:219-226) -/
  | gaveUp
  /-- in the handler of serve.go:113-120, before `cancel` is called -/
  | handling
  | over
deriving DecidableEq, Repr

/-- What the variable `cancel` refers to (serve.go:41 declares it, serve.go:199 assigns it: `:=` declares `shutdownCtx` only, and `cancel` is in the same scope). -/
inductive CancelVar where
  | ctx | shutdown
deriving DecidableEq, Repr

structure Tool where
  pc : ToolPC
  srv : SrvPC := .none
  con : ConPC := .none
  registered : Bool := false
  cancelVar : CancelVar := .ctx
  /-- the context of serve.go:41 has ended -/
  ctxDone : Bool := false
  /-- the context of serve.go:199 has ended -/
  shutdownDone : Bool := false
  /-- `srv.Shutdown` has been called -/
  inShutdown : Bool := false
  /-- requests being answered -/
  active : Nat := 0
deriving DecidableEq, Repr

def ToolCmd.init (cmd : ToolCmd) : Tool := { pc := .setup cmd.setup }

inductive ToolEv where
  /-- interrupt signal (main.go:145) -/
  | interrupt
  | setup (step : ToolSetup)
  | ready
  | wake
  | arm
  | shutdown
  | shutdownReturns
  | «return»
  /-- a second has passed since serve.go:199 -/
  | second
  /-- `ListenAndServe` listens, or not -/
  | listen (ok : Bool)
  /-- `ListenAndServe` fails later -/
  | serverError
  | serverClosed
  /-- a request comes in -/
  | request
  /-- and is answered -/
  | answer
  /-- the container gives up -/
  | giveUp
  /-- it calls the handlers -/
  | final
  /-- serve.go:116: `cancel()` -/
  | cancel
  /-- the container ends because its context did -/
  | containerEnds
deriving DecidableEq, Repr

inductive Tool.Step : Tool → ToolEv → Tool → Prop where
  | interrupt {s : Tool} : Tool.Step s .interrupt { s with ctxDone := true }
  | startContainer {s : Tool} {todo : List ToolSetup} : s.pc = .setup (.startContainer :: todo) →
      Tool.Step s (.setup .startContainer) { s with pc := .setup todo, con := .running }
  | onSessionError {s : Tool} {todo : List ToolSetup} : s.pc = .setup (.onSessionError :: todo) →
      Tool.Step s (.setup .onSessionError) { s with pc := .setup todo, registered := true }
  | goServe {s : Tool} {todo : List ToolSetup} : s.pc = .setup (.goServe :: todo) →
      Tool.Step s (.setup .goServe) { s with pc := .setup todo, srv := .spawned }
  | ready {s : Tool} : s.pc = .setup [] → Tool.Step s .ready { s with pc := .waiting }
  /-- serve.go:197, fixture.go:63 -/
  | wake {s : Tool} : s.pc = .waiting → s.ctxDone = true → Tool.Step s .wake { s with pc := .woken }
  /-- serve.go:199-200, fixture.go:65-66 -/
  | arm {s : Tool} : s.pc = .woken → Tool.Step s .arm { s with pc := .armed, cancelVar := .shutdown }
  /-- serve.go:201, fixture.go:67 -/
  | shutdown {s : Tool} : s.pc = .armed → Tool.Step s .shutdown { s with pc := .shutting, inShutdown := true }
  | shutdownReturns {s : Tool} : s.pc = .shutting → (s.active = 0 ∨ s.shutdownDone = true) → Tool.Step s .shutdownReturns { s with pc := .joining }
  /-- serve.go:202-203, fixture.go:68-69 -/
  | return {s : Tool} : s.pc = .joining → (s.srv = .failed ∨ s.srv = .closed) → Tool.Step s .«return» { s with pc := .returned }
  | second {s : Tool} : (s.pc = .armed ∨ s.pc = .shutting) → s.shutdownDone = false → Tool.Step s .second { s with shutdownDone := true }
  | listenOk {s : Tool} : s.srv = .spawned → s.inShutdown = false → Tool.Step s (.listen true) { s with srv := .listening }
  /-- serve.go:193-195: the error is logged -/
  | listenFails {s : Tool} : s.srv = .spawned → s.inShutdown = false → Tool.Step s (.listen false) { s with srv := .failed }
  | serverError {s : Tool} : s.srv = .listening → s.inShutdown = false → Tool.Step s .serverError { s with srv := .failed }
  | serverClosed {s : Tool} : (s.srv = .spawned ∨ s.srv = .listening) → s.inShutdown = true → Tool.Step s .serverClosed { s with srv := .closed }
  | request {s : Tool} : s.srv = .listening → s.inShutdown = false → Tool.Step s .request { s with active := s.active + 1 }
  | answer {s : Tool} {n : Nat} : s.active = n + 1 → Tool.Step s .answer { s with active := n }
  /-- backoff retry.go, context.go: only while the context has not ended -/
  | giveUp {s : Tool} : s.con = .running → s.ctxDone = false → Tool.Step s .giveUp { s with con := .gaveUp }
  /-- container.go:224-229: the handlers there are; serve.go:114: the error is not a RetryableError -/
  | final {s : Tool} : s.con = .gaveUp → Tool.Step s .final { s with con := if s.registered then .handling else .over }
  /-- serve.go:116 -/
  | cancelCtx {s : Tool} : s.con = .handling → s.cancelVar = .ctx → Tool.Step s .cancel { s with con := .over, ctxDone := true }
  | cancelShutdown {s : Tool} : s.con = .handling → s.cancelVar = .shutdown → Tool.Step s .cancel { s with con := .over, shutdownDone := true }
  /-- container.go:196-197, 221-222 -/
  | containerEnds {s : Tool} : (s.con = .running ∨ s.con = .gaveUp) → s.ctxDone = true → Tool.Step s .containerEnds { s with con := .over }

/-- The process ends when the command returns. -/
inductive Tool.Run : Tool → List ToolEv → Tool → Prop where
  | nil {s : Tool} : Tool.Run s [] s
  | snoc {s s' s'' : Tool} {evs : List ToolEv} {ev : ToolEv} : Tool.Run s evs s' → s'.pc ≠ .returned → Tool.Step s' ev s'' → Tool.Run s (evs ++ [ev]) s''

end Verif.Model
