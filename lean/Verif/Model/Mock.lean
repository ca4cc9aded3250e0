import Verif.Basic.GMap
import Verif.Model.Ctx

/-!
# Model of `/repo/session/mock.go`

A transition system of the mock router: any number of goroutines create receivers and senders, send, receive and close.  A step is what happens between two points
where another goroutine can interfere: a critical section of `router.mu` or of the `mu` of a multicast that does not block inside, one receiver of the loop in
`multicast.send`, or a channel operation.

Messages are pointers, here numbers.  Not modelled: `make(chan, n)` fails for absurdly large credits.
-/
namespace Verif.Model
open Verif

/-- mock.go:28-39: where NewReceiver is. -/
inductive MSubPC where
  /-- line 64, `router.get` -/
  | getting
  /-- line 113 -/
  | locking (mc : Nat)
  | done
deriving DecidableEq

/-- mock.go:120-124 -/
structure MRcv where
  addr : String
  cap : Nat
  closed : Bool := false
  chan : List Nat := []
  sub : MSubPC := .getting
deriving DecidableEq

/-- mock.go:154-159 -/
structure MSnd where
  addr : String
  closed : Bool := false
deriving DecidableEq

/-- mock.go:82-86.  `ver` stands for the channel `update`: it is closed and replaced when `ver` grows; `holder` is the call of `send` that holds `mu`. -/
structure MCast where
  receivers : List Nat := []
  ver : Nat := 0
  holder : Option Nat := none
deriving DecidableEq

inductive MSendPC where
  /-- line 162 -/
  | start
  /-- line 68, `router.get` -/
  | getting
  /-- line 93 -/
  | locking (mc : Nat)
  /-- line 96, holding `m.mu`, with these receivers to go -/
  | sending (mc : Nat) (left : List Nat)
  /-- line 131, holding `m.mu`: a send on the channel of receiver `r` -/
  | offering (mc r : Nat) (left : List Nat)
  /-- line 102, with the channel `update` of version `ver` -/
  | parked (mc ver : Nat)
  | done (r : Option GoErr)
deriving DecidableEq

/-- A call of mockSender.Send. -/
structure MSend where
  sender : Nat
  addr : String
  msg : Nat
  ctx : Option GoErr := none
  pc : MSendPC := .start
deriving DecidableEq

structure Mock where
  /-- MockRouter.topics: addresses and multicasts (an index) -/
  topics : GMap String Nat := []
  mcs : List MCast := []
  rcvs : List MRcv := []
  snds : List MSnd := []
  ops : List MSend := []

inductive MockEv where
  /-- NewReceiver is called for an address; receiver `r` -/
  | newReceiver (r : Nat) (a : String)
  /-- NewReceiver returns -/
  | subscribed (r : Nat)
  | newSender (i : Nat) (a : String)
  /-- Send is called with a message -/
  | call (o i : Nat) (a : String) (m : Nat)
  /-- the context of a Send ends -/
  | cancelOp (o : Nat) (e : GoErr)
  /-- a Send begins to deliver its message -/
  | accepted (o : Nat) (a : String) (m : Nat)
  /-- a Send returns -/
  | ret (o : Nat) (r : Option GoErr)
  /-- Next returns a message -/
  | recv (r m : Nat)
  /-- Next returns because the receiver is closed -/
  | nextClosed (r : Nat)
  | closeReceiver (r : Nat)
  | closeSender (i : Nat)
  | step (o : Nat)
deriving DecidableEq

/-- mock.go:71-80 -/
def Mock.get (s : Mock) (a : String) : Nat × Mock :=
  match s.topics.get? a with
  | some t => (t, s)
  | none => (s.mcs.length, { s with topics := s.topics.set a s.mcs.length, mcs := s.mcs ++ [{}] })

def Mock.setOp (s : Mock) (o : Nat) (pc : MSendPC) : Mock := { s with ops := s.ops.modify o fun x => { x with pc := pc } }
def Mock.setRcv (s : Mock) (r : Nat) (f : MRcv → MRcv) : Mock := { s with rcvs := s.rcvs.modify r f }
def Mock.setMC (s : Mock) (t : Nat) (f : MCast → MCast) : Mock := { s with mcs := s.mcs.modify t f }

/-- mock.go:29-32 -/
def mockCredit (credit : Int) : Nat := if credit ≤ 0 then 256 else credit.toNat

inductive Mock.Step : Mock → MockEv → Mock → Prop where
  /-- mock.go:33-36 -/
  | newReceiver {s : Mock} (a : String) (credit : Int) :
      Mock.Step s (.newReceiver s.rcvs.length a) { s with rcvs := s.rcvs ++ [{ addr := a, cap := mockCredit credit }] }
  /-- mock.go:37, 64 -/
  | subGet {s : Mock} {r : Nat} {x : MRcv} : s.rcvs[r]? = some x → x.sub = .getting →
      Mock.Step s (.step r) ((s.get x.addr).2.setRcv r fun y => { y with sub := .locking (s.get x.addr).1 })
  /-- mock.go:113-117, 38 -/
  | subscribe {s : Mock} {r mc : Nat} {x : MRcv} {m : MCast} : s.rcvs[r]? = some x → x.sub = .locking mc → s.mcs[mc]? = some m → m.holder = none →
      Mock.Step s (.subscribed r) ((s.setMC mc fun y => { y with receivers := y.receivers ++ [r], ver := y.ver + 1 }).setRcv r fun y => { y with sub := .done })
  /-- mock.go:42-46 -/
  | newSender {s : Mock} (a : String) : Mock.Step s (.newSender s.snds.length a) { s with snds := s.snds ++ [{ addr := a }] }
  /-- mock.go:161 -/
  | call {s : Mock} {i : Nat} {x : MSnd} (m : Nat) (ctx : Option GoErr) : s.snds[i]? = some x →
      Mock.Step s (.call s.ops.length i x.addr m) { s with ops := s.ops ++ [{ sender := i, addr := x.addr, msg := m, ctx := ctx }] }
  | cancelOp {s : Mock} {op : MSend} (o : Nat) (e : GoErr) : e.IsCtx → s.ops[o]? = some op → op.ctx = none →
      Mock.Step s (.cancelOp o e) { s with ops := s.ops.modify o fun x => { x with ctx := some e } }
  /-- mock.go:163-164 -/
  | startClosed {s : Mock} {o : Nat} {op : MSend} {x : MSnd} : s.ops[o]? = some op → op.pc = .start → s.snds[op.sender]? = some x → x.closed = true →
      Mock.Step s (.ret o (some (.other "sender closed"))) (s.setOp o (.done (some (.other "sender closed"))))
  /-- mock.go:165-166 -/
  | startCtx {s : Mock} {o : Nat} {op : MSend} {e : GoErr} : s.ops[o]? = some op → op.pc = .start → op.ctx = some e →
      Mock.Step s (.ret o (some e)) (s.setOp o (.done (some e)))
  /-- mock.go:167-168 -/
  | startGo {s : Mock} {o : Nat} {op : MSend} {x : MSnd} : s.ops[o]? = some op → op.pc = .start → s.snds[op.sender]? = some x → x.closed = false →
      op.ctx = none → Mock.Step s (.step o) (s.setOp o .getting)
  /-- mock.go:68 -/
  | get {s : Mock} {o : Nat} {op : MSend} : s.ops[o]? = some op → op.pc = .getting →
      Mock.Step s (.step o) ((s.get op.addr).2.setOp o (.locking (s.get op.addr).1))
  /-- mock.go:93-94 -/
  | lock {s : Mock} {o mc : Nat} {op : MSend} {m : MCast} : s.ops[o]? = some op → op.pc = .locking mc → s.mcs[mc]? = some m → m.holder = none →
      m.receivers ≠ [] → Mock.Step s (.accepted o op.addr op.msg) ((s.setMC mc fun y => { y with holder := some o }).setOp o (.sending mc m.receivers))
  /-- mock.go:93-101, without receivers -/
  | lockEmpty {s : Mock} {o mc : Nat} {op : MSend} {m : MCast} : s.ops[o]? = some op → op.pc = .locking mc → s.mcs[mc]? = some m → m.holder = none →
      m.receivers = [] → Mock.Step s (.step o) (s.setOp o (.parked mc m.ver))
  /-- mock.go:103-104 -/
  | parkCtx {s : Mock} {o mc v : Nat} {op : MSend} {e : GoErr} : s.ops[o]? = some op → op.pc = .parked mc v → op.ctx = some e →
      Mock.Step s (.ret o (some e)) (s.setOp o (.done (some e)))
  /-- mock.go:105-106 -/
  | wake {s : Mock} {o mc v : Nat} {op : MSend} {m : MCast} : s.ops[o]? = some op → op.pc = .parked mc v → s.mcs[mc]? = some m → m.ver ≠ v →
      Mock.Step s (.step o) (s.setOp o (.locking mc))
  /-- mock.go:127-129 -/
  | skip {s : Mock} {o mc r : Nat} {left : List Nat} {op : MSend} {x : MRcv} : s.ops[o]? = some op → op.pc = .sending mc (r :: left) → s.rcvs[r]? = some x →
      x.closed = true → Mock.Step s (.step o) (s.setOp o (.sending mc left))
  /-- mock.go:127, 130 -/
  | offer {s : Mock} {o mc r : Nat} {left : List Nat} {op : MSend} {x : MRcv} : s.ops[o]? = some op → op.pc = .sending mc (r :: left) → s.rcvs[r]? = some x →
      x.closed = false → Mock.Step s (.step o) (s.setOp o (.offering mc r left))
  /-- mock.go:131; whether the receiver is closed does not matter any more -/
  | put {s : Mock} {o mc r : Nat} {left : List Nat} {op : MSend} {x : MRcv} : s.ops[o]? = some op → op.pc = .offering mc r left → s.rcvs[r]? = some x →
      x.chan.length < x.cap → Mock.Step s (.step o) ((s.setRcv r fun y => { y with chan := y.chan ++ [op.msg] }).setOp o (.sending mc left))
  /-- mock.go:100, 109 -/
  | finish {s : Mock} {o mc : Nat} {op : MSend} : s.ops[o]? = some op → op.pc = .sending mc [] →
      Mock.Step s (.ret o none) ((s.setMC mc fun y => { y with holder := none }).setOp o (.done none))
  /-- mock.go:140-141; the select may choose this branch even if the receiver is closed or the context has ended -/
  | recv {s : Mock} {r m : Nat} {rest : List Nat} {x : MRcv} : s.rcvs[r]? = some x → x.sub = .done → x.chan = m :: rest →
      Mock.Step s (.recv r m) (s.setRcv r fun y => { y with chan := rest })
  /-- mock.go:138-139 -/
  | nextClosed {s : Mock} {r : Nat} {x : MRcv} : s.rcvs[r]? = some x → x.sub = .done → x.closed = true → Mock.Step s (.nextClosed r) s
  /-- mock.go:149-152 -/
  | closeReceiver {s : Mock} {r : Nat} {x : MRcv} : s.rcvs[r]? = some x → x.sub = .done →
      Mock.Step s (.closeReceiver r) (s.setRcv r fun y => { y with closed := true })
  /-- mock.go:172-175 -/
  | closeSender {s : Mock} {i : Nat} {x : MSnd} : s.snds[i]? = some x →
      Mock.Step s (.closeSender i) { s with snds := s.snds.modify i fun y => { y with closed := true } }

inductive Mock.Run (s0 : Mock) : List MockEv → Mock → Prop where
  | nil : Mock.Run s0 [] s0
  | snoc {s s' : Mock} {evs : List MockEv} {ev : MockEv} : Mock.Run s0 evs s → Mock.Step s ev s' → Mock.Run s0 (evs ++ [ev]) s'

end Verif.Model
