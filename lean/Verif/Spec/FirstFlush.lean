import Verif.Spec.Request
import Verif.Model.Discovered

/-!
# A collector that discovers a source and asks for a flush (`/repo/cmd/vanflow-tool/serve.go:121-176`)

The system of `Spec/Request` together with the goroutine of serve.go:164-176 (`Fl` of `Model/Discovered`): the handlers of `FlushOnFirstMessage` are called by the client's listeners, and the
flush message goes through the router.  Simplification: the contexts of the two Sends may end at any time.
-/
namespace Verif.Spec
open Verif Verif.Model

/-- A collector is about to listen to a source, which may have done anything before, and so may the router and the client: since the receiver of the listener was subscribed to the address of
the source — if it is — nothing was sent to it, every Send to that address has returned or is under way, the listener is not handling a message, and the dispatcher is registered once. -/
structure Sys.Before (k : SysCfg) (n0 : List MockEv) (c0 : List ClEv) (s : Sys) : Prop where
  src : ∃ s1 evs1, Src.Start k.mgr k.id k.tm s1 ∧ Src.Run k.mgr k.id k.tm s1 evs1 s.src
  mock : Mock.Run {} n0 s.mock
  unsent : sentAfter k.rcv k.addr n0 = []
  returned : ∀ o i m, MockEv.call o i k.addr m ∈ n0 → s.sending ≠ some o → ∃ r, MockEv.ret o r ∈ n0
  cl : Client.Run vanRegistry {} c0 s.cl
  listener : ∃ x, s.cl.listeners[k.lst]? = some x ∧ (x.pc = .adding ∨ x.pc = .receiving ∨ x.pc = .finished)
  registered : s.cl.recordHandlers.count k.hnd = 1
  sending : ∀ o, s.sending = some o → Sys.Underway k s o
  ended : s.ended = false

/-- Which parts are tied together. -/
structure AskCfg where
  sys : SysCfg
  /-- the receiver of `Manager.listenFlushes` -/
  flush : Nat
  /-- the source, as the client knows it -/
  info : Info
  /-- the handlers `awaiter.Record` and `awaiter.Heartbeat` (flush.go:16-17) -/
  onRecord : Nat
  onHeartbeat : Nat

/-- The handler belongs to the awaiter, and the message is for it. -/
def AskCfg.Awaits (a : AskCfg) (h : Nat) : Decoded → Prop
  | .record _ => h = a.onRecord
  | .heartbeat _ => h = a.onHeartbeat
  | _ => False

structure DSys where
  f : FSys
  fl : Fl := {}
  /-- the call of Send in which `SendFlush` is (client.go:157) -/
  asking : Option Nat := none

structure DEv where
  sys : SysEv := {}
  fl : List FlEv := []

/-- What SendFlush returns (client.go:157-160). -/
def sendFlushResult (r : Option GoErr) : Option GoErr := r.map (.wrap "client flush error")

/-- Nothing is promised about the result of Send but what the router does. -/
def anyResult : Callee := fun _ _ => True

/-- A step of the flush goroutine by itself: it takes no message, is in no Send and begins none. -/
def FlAlone (s : Fl) : FlEv → Prop
  | .inner .handled => False
  | .inner (.send ..) => False
  | .inner (.return_ _) => s.ff.pc ≠ .sending
  | .send .. => False
  | .sent _ => False
  | _ => True

inductive DSys.Step (a : AskCfg) : DSys → DEv → DSys → Prop where
  /-- client.go:124-133, flush.go:31-37: a handler of the awaiter is called -/
  | handled {s : DSys} {l h : Nat} {d : Decoded} {f : FSys} {fl : Fl} : a.Awaits h d → FSys.Step a.sys a.flush s.f { c := [.call l h d] } f →
      Fl.Step a.info anyResult s.fl (.inner .handled) fl →
      DSys.Step a s { sys := { c := [.call l h d] }, fl := [.inner .handled] } { s with f := f, fl := fl }
  /-- serve.go:167, 169, client.go:157: Send is called -/
  | ask {s : DSys} {o i m : Nat} {msg : Msg} {ev : FlEv} {f : FSys} {fl : Fl} : s.asking = none →
      ev = .inner (.send a.info.direct msg) ∨ ev = .send a.info.direct msg → Fl.Step a.info anyResult s.fl ev fl →
      FSys.Step a.sys a.flush s.f { n := [.call o i a.info.direct m] } f →
      DSys.Step a s { sys := { n := [.call o i a.info.direct m] }, fl := [ev] } { f := f, fl := fl, asking := some o }
  /-- client.go:157-160: Send returns -/
  | asked {s : DSys} {o : Nat} {r : Option GoErr} {ev : FlEv} {f : FSys} {fl : Fl} : s.asking = some o →
      (s.fl.ff.pc = .sending ∧ ev = .inner (.return_ (sendFlushResult r))) ∨ ev = .sent (sendFlushResult r) → Fl.Step a.info anyResult s.fl ev fl →
      FSys.Step a.sys a.flush s.f { n := [.ret o r] } f →
      DSys.Step a s { sys := { n := [.ret o r] }, fl := [ev] } { f := f, fl := fl, asking := none }
  /-- the goroutine by itself -/
  | alone {s : DSys} {ev : FlEv} {fl : Fl} : FlAlone s.fl ev → Fl.Step a.info anyResult s.fl ev fl → DSys.Step a s { fl := [ev] } { s with fl := fl }
  /-- everything else -/
  | other {s : DSys} {ev : SysEv} {f : FSys} : FSys.Step a.sys a.flush s.f ev f → (∀ l h d, .call l h d ∈ ev.c → ¬ a.Awaits h d) →
      (∀ o r, s.asking = some o → .ret o r ∉ ev.n) → DSys.Step a s { sys := ev } { s with f := f }

inductive DSys.Run (a : AskCfg) : DSys → DEv → DSys → Prop where
  | nil {s : DSys} : DSys.Run a s {} s
  | snoc {s s' s'' : DSys} {evs ev : DEv} : DSys.Run a s evs s' → DSys.Step a s' ev s'' →
      DSys.Run a s { sys := { m := evs.sys.m ++ ev.sys.m, n := evs.sys.n ++ ev.sys.n, c := evs.sys.c ++ ev.sys.c }, fl := evs.fl ++ ev.fl } s''

end Verif.Spec
