import Verif.Spec.Resync

/-!
# The way of a flush request: from the router to the manager's flush queue

`Manager.listenFlushes` (/repo/eventsource/manager.go:309-326), added to the system of `Spec/EndToEnd`: the flush messages of the manager are those its receiver on the direct address of the
source gets from the router.  Not modelled: other errors of the receiver than the end of the context (the mock has none while the receiver is open).
-/
namespace Verif.Spec
open Verif Verif.Model

/-- The goroutine `listenFlushes`. -/
inductive FlushPC where
  /-- in `Next` (manager.go:313) -/
  | receiving
  /-- it has a message and has not queued the flush (manager.go:314-324) -/
  | holding
  /-- it has returned (manager.go:315-317) -/
  | finished
deriving DecidableEq, Repr

structure FSys where
  sys : Sys
  pc : FlushPC := .receiving

inductive FSys.Step (k : SysCfg) (f : Nat) : FSys → SysEv → FSys → Prop where
  /-- manager.go:313: `Next` hands a message over -/
  | next {s : FSys} {m : Nat} {mock : Mock} : s.pc = .receiving → Mock.Step s.sys.mock (.recv f m) mock →
      FSys.Step k f s { n := [.recv f m] } { s with sys := { s.sys with mock := mock }, pc := .holding }
  /-- manager.go:320-324; mock.go:145-147: Accept does nothing -/
  | queue {s : FSys} {src : Src} : s.pc = .holding → Src.Step k.mgr k.id k.tm s.sys.src (some .flushReceived) src →
      FSys.Step k f s { m := [.flushReceived] } { s with sys := { s.sys with src := src }, pc := .receiving }
  /-- manager.go:315-317 -/
  | stop {s : FSys} : s.pc = .receiving → s.sys.src.mgr.cancelled = true → FSys.Step k f s {} { s with pc := .finished }
  /-- everything else; manager.go:311: the receiver is closed when the goroutine returns -/
  | other {s : FSys} {ev : SysEv} {sys : Sys} : Sys.Step k s.sys ev sys → .flushReceived ∉ ev.m → .receiveError ∉ ev.m → (∀ m, .recv f m ∉ ev.n) →
      (.closeReceiver f ∈ ev.n → s.pc = .finished) → FSys.Step k f s ev { s with sys := sys }

inductive FSys.Run (k : SysCfg) (f : Nat) : FSys → SysEv → FSys → Prop where
  | nil {s : FSys} : FSys.Run k f s {} s
  | snoc {s s' s'' : FSys} {evs ev : SysEv} : FSys.Run k f s evs s' → FSys.Step k f s' ev s'' →
      FSys.Run k f s { m := evs.m ++ ev.m, n := evs.n ++ ev.n, c := evs.c ++ ev.c } s''

end Verif.Spec
