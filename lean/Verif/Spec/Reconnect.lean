import Verif.Spec.FirstFlush

/-!
# A collector that loses its connection and gets another

The link of a listener (`session/container.go:386-402`) makes a new receiver on the next session when `Receive` fails (lines 313-325, 341-370), inside one call of `Next`; the client does not
notice.  Here: the listener goes on with another receiver of the router of `Spec/EndToEnd`, any number of times.  What becomes of the receiver it had does not matter.
-/
namespace Verif.Spec
open Verif Verif.Model

/-- The system when the listener has the receiver `r`. -/
def SysCfg.on (k : SysCfg) (r : Nat) : SysCfg := { k with rcv := r }

/-- A run in which the listener changes its receiver, from `k.rcv` at first to `r` at last: each time it is in `Next` (client.go:103), and the new receiver is made for the same address
after that. -/
inductive Sys.Relinked (k : SysCfg) (n0 : List MockEv) (s0 : Sys) : Nat → SysEv → Sys → Prop where
  | first {s : Sys} {evs : SysEv} : Sys.Run k s0 evs s → (∀ a, MockEv.newReceiver k.rcv a ∈ n0 ++ evs.n → a = k.addr) → Sys.Relinked k n0 s0 k.rcv evs s
  | again {s s' : Sys} {evs evs' : SysEv} {r r' : Nat} : Sys.Relinked k n0 s0 r evs s → s.cl.crashed = false →
      (∃ x, s.cl.listeners[k.lst]? = some x ∧ x.pc = .receiving) → (∀ a, MockEv.newReceiver r' a ∉ n0 ++ evs.n) →
      Sys.Run (k.on r') s evs' s' → (∀ a, MockEv.newReceiver r' a ∈ evs'.n → a = k.addr) →
      Sys.Relinked k n0 s0 r' { m := evs.m ++ evs'.m, n := evs.n ++ evs'.n, c := evs.c ++ evs'.c } s'

end Verif.Spec
