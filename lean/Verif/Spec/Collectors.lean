import Verif.Spec.EndToEnd

/-!
# Several collectors of one source

The system of `Spec/EndToEnd` with any number of collectors: one source with its manager, one router, and for each collector a process with a client and stores of its own.
-/
namespace Verif.Spec
open Verif Verif.Model

/-- The source (`base`), and of each collector its receiver, its listener, its handler and its dispatcher. -/
structure NetCfg where
  base : SysCfg
  rcv : Nat → Nat
  lst : Nat → Nat
  hnd : Nat → Nat
  world : Nat → RegWorld
  disp : Nat → Dispatcher

/-- The source and collector `c`. -/
def NetCfg.at (k : NetCfg) (c : Nat) : SysCfg := { k.base with rcv := k.rcv c, lst := k.lst c, hnd := k.hnd c, world := k.world c, disp := k.disp c }

/-- No two collectors use one receiver. -/
def NetCfg.Apart (k : NetCfg) : Prop := ∀ c d, c ≠ d → k.rcv c ≠ k.rcv d

structure Net where
  src : Src
  mock : Mock := {}
  msgs : List Msg := []
  sending : Option Nat := none
  cl : Nat → Client
  stores : Nat → Stores (GoRec GoTime)
  ended : Nat → Bool := fun _ => false

/-- What there is when one looks at collector `c` only. -/
def Net.view (s : Net) (c : Nat) : Sys := { src := s.src, mock := s.mock, msgs := s.msgs, sending := s.sending, cl := s.cl c, stores := s.stores c, ended := s.ended c }

/-- The other collectors as they were. -/
def Net.put (s : Net) (c : Nat) (t : Sys) : Net where
  src := t.src
  mock := t.mock
  msgs := t.msgs
  sending := t.sending
  cl := fun d => if d = c then t.cl else s.cl d
  stores := fun d => if d = c then t.stores else s.stores d
  ended := fun d => if d = c then t.ended else s.ended d

structure NetEv where
  m : List MgrEv := []
  n : List MockEv := []
  c : Nat → List ClEv := fun _ => []

def NetEv.view (ev : NetEv) (c : Nat) : SysEv := { m := ev.m, n := ev.n, c := ev.c c }

/-- A step of the source, of the router or of collector `c`.  What is received at the receiver of another collector goes to that collector. -/
inductive Net.Step (k : NetCfg) : Net → NetEv → Net → Prop where
  | of {s : Net} {ev : SysEv} {t : Sys} (c : Nat) : Sys.Step (k.at c) (s.view c) ev t → (∀ d, d ≠ c → ∀ m, MockEv.recv (k.rcv d) m ∉ ev.n) →
      Net.Step k s { m := ev.m, n := ev.n, c := fun d => if d = c then ev.c else [] } (s.put c t)

inductive Net.Run (k : NetCfg) : Net → NetEv → Net → Prop where
  | nil {s : Net} : Net.Run k s {} s
  | snoc {s s' s'' : Net} {evs ev : NetEv} : Net.Run k s evs s' → Net.Step k s' ev s'' →
      Net.Run k s { m := evs.m ++ ev.m, n := evs.n ++ ev.n, c := fun d => evs.c d ++ ev.c d } s''

end Verif.Spec
