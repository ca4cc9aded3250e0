import Verif.Model.Client

/-!
# The flush goroutine started for a discovered source (`/repo/cmd/vanflow-tool/serve.go:164-176`, `/repo/cmd/vanflow-tool/log.go:74-86`)

`FlushOnFirstMessage` is the transition system `Ff` of `Verif/Model/Client.lean`; its context is the one made with `context.WithTimeout(ctx, 5*time.Second)`.
The two files have the same code.
-/
namespace Verif.Model
open Verif

/-- After the call of FlushOnFirstMessage (serve.go:167). -/
inductive FlPC where
  /-- not yet past line 167 -/
  | first
  /-- line 169: in client.SendFlush(ctx) -/
  | retrying
  /-- at line 171 with this error -/
  | over (r : Option GoErr)
deriving DecidableEq

structure Fl where
  /-- the call at line 167; `ff.ctx` is `flushCtx.Err()` -/
  ff : Ff := {}
  /-- `ctx.Err()` -/
  parent : Option GoErr := none
  pc : FlPC := .first

inductive FlEv where
  /-- something in FlushOnFirstMessage -/
  | inner (ev : FfEv)
  /-- five seconds have passed -/
  | timeout
  /-- the tool shuts down -/
  | shutdown
  /-- line 169: a message is given to the sender -/
  | send (addr : String) (msg : Msg)
  /-- line 169: SendFlush returns -/
  | sent (r : Option GoErr)
  /-- lines 171-175 -/
  | over (r : Option GoErr)

inductive Fl.Step (src : Info) (snd : Callee) : Fl → FlEv → Fl → Prop where
  /-- line 167 (the context ends by the two steps below) -/
  | inner {s : Fl} {ev : FfEv} {ff' : Ff} : s.ff.crashed = false → ev ≠ .cancel → Ff.Step src snd s.ff ev ff' →
      Fl.Step src snd s (.inner ev) { s with ff := ff' }
  /-- line 165 -/
  | timeout {s : Fl} : s.ff.ctx = none → Fl.Step src snd s .timeout { s with ff := { s.ff with ctx := some .deadline } }
  /-- the parent context ends, and flushCtx with it -/
  | shutdown {s : Fl} (e : GoErr) : e.IsCtx → s.parent = none →
      Fl.Step src snd s .shutdown { s with parent := some e, ff := { s.ff with ctx := s.ff.ctx.or (some e) } }
  /-- lines 168-169, client.go:150-157 -/
  | retry {s : Fl} {e : GoErr} : s.pc = .first → s.ff.pc = .returned (some e) → errorsIs (some e) s.ff.ctx = true →
      Fl.Step src snd s (.send src.direct (Flush.encode { hdr := ⟨src.direct, "", ""⟩ })) { s with pc := .retrying }
  /-- line 169, client.go:157-160 -/
  | retried {s : Fl} {r : Option GoErr} : s.pc = .retrying → snd s.parent r →
      Fl.Step src snd s (.sent (r.map (.wrap "client flush error"))) { s with pc := .over (r.map (.wrap "client flush error")) }
  /-- line 168: no error, or another one -/
  | noRetry {s : Fl} {r : Option GoErr} : s.pc = .first → s.ff.pc = .returned r → (r = none ∨ errorsIs r s.ff.ctx = false) →
      Fl.Step src snd s (.over r) { s with pc := .over r }

inductive Fl.Run (src : Info) (snd : Callee) : Fl → List FlEv → Fl → Prop where
  | nil {s : Fl} : Fl.Run src snd s [] s
  | snoc {s s' s'' : Fl} {evs : List FlEv} {ev : FlEv} : Fl.Run src snd s evs s' → Fl.Step src snd s' ev s'' → Fl.Run src snd s (evs ++ [ev]) s''

end Verif.Model
