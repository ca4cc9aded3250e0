import Verif.Spec.EndToEnd

/-!
# What the whole system does by itself

The moves of the goroutines on the way of a record: `serve` and `sendRecords` of the manager (eventsource/manager.go:80-99, 144-226), the call of `Send` that `sendRecords` is in
(session/mock.go:67-109, 161-169) and the listener of the collector (eventsource/client.go:87-137).  Everything else is up to others: the program that makes, stores and publishes
records, flush messages, contexts, other users of the router, other listeners, calls of the client's methods, and the failures of `Next` and `Accept`.
-/
namespace Verif.Spec
open Verif Verif.Model

/-- A step of one of these goroutines. -/
def Sys.Own (k : SysCfg) (s : Sys) (ev : SysEv) (s' : Sys) : Prop :=
  Sys.Step k s ev s' ∧
    ((∃ e ∈ ev.m, Internal e) ∨
     s'.sending ≠ s.sending ∨
     (∃ o op op', s.sending = some o ∧ s.mock.ops[o]? = some op ∧ s'.mock.ops[o]? = some op' ∧ op'.pc ≠ op.pc) ∨
     ((∀ e, ClEv.failed k.lst e ∉ ev.c) ∧ ∃ x x', s.cl.listeners[k.lst]? = some x ∧ s'.cl.listeners[k.lst]? = some x' ∧ x'.pc ≠ x.pc))

/-- A run of `n` such steps. -/
inductive Sys.OwnRun (k : SysCfg) : Sys → Nat → SysEv → Sys → Prop where
  | nil {s : Sys} : Sys.OwnRun k s 0 {} s
  | snoc {s s' s'' : Sys} {n : Nat} {evs ev : SysEv} : Sys.OwnRun k s n evs s' → Sys.Own k s' ev s'' →
      Sys.OwnRun k s (n + 1) { m := evs.m ++ ev.m, n := evs.n ++ ev.n, c := evs.c ++ ev.c } s''

/-- None of these goroutines can move. -/
def Sys.Rest (k : SysCfg) (s : Sys) : Prop := ∀ ev s', ¬ Sys.Own k s ev s'

/-- The surroundings let the system work: the manager is running, its sender is one for the address, no other receiver on the address is full, and nobody is closing the client. -/
structure Sys.Free (k : SysCfg) (s : Sys) : Prop where
  serve : s.src.mgr.pc ≠ .stopped ∧ s.src.mgr.pc ≠ .crashed ∧ s.src.mgr.snd ≠ .done
  sender : ∃ x, s.mock.snds[k.snd]? = some x ∧ x.addr = k.addr
  room : ∀ (r : Nat) (x : MRcv), s.mock.rcvs[r]? = some x → x.addr = k.addr → r ≠ k.rcv → x.chan.length < x.cap
  client : s.cl.lock = none ∧ s.cl.crashed = false ∧ s.ended = false
  listener : ∀ x, s.cl.listeners[k.lst]? = some x → x.pc ≠ .finished

end Verif.Spec
