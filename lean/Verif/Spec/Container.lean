import Verif.Model.Container

/-!
# What the session container is asked to do

The properties speak about the events of an execution: sessions that are established and given up, calls of the AMQP library that are made for a link, and errors that
operations report.
-/
namespace Verif.Spec
open Verif.Model

/-- An event in which an operation on link `i` calls the AMQP library with the session of generation `g`. -/
def Touches (i g : Nat) (ev : CtrEv) : Prop := ev = .use i g ∨ ev = .fail i g

/-- How often an event satisfies a test. -/
def countEv (p : CtrEv → Bool) (evs : List CtrEv) : Nat := (evs.filter p).length

def isRetry : CtrEv → Bool
  | .retry => true
  | _ => false

def isGiveUp : CtrEv → Bool
  | .giveUp => true
  | _ => false

def isFinishing : CtrEv → Bool
  | .finishing => true
  | _ => false

def isRegistration (h : Nat) : CtrEv → Bool
  | .onError h' => h == h'
  | _ => false

def isHandler (h : Nat) (retryable : Bool) : CtrEv → Bool
  | .handler h' r => h == h' && r == retryable
  | _ => false

/-- A session or an attempt to get one has failed. -/
def isFailure : CtrEv → Bool
  | .dialFail | .sessionFail | .restart _ => true
  | _ => false

/-- How many calls of handler `h` are due if every event of a kind calls all handlers that were registered before it (the events latest first). -/
def dueRev (h : Nat) (p : CtrEv → Bool) : List CtrEv → Nat
  | [] => 0
  | ev :: older => (if p ev then countEv (isRegistration h) older else 0) + dueRev h p older

def dueCalls (h : Nat) (p : CtrEv → Bool) (evs : List CtrEv) : Nat := dueRev h p evs.reverse

/-- The events of one operation. -/
def isOwnStep (o : Nat) : CtrEv → Bool
  | .step o' | .ret o' _ | .retryNext o' => o == o'
  | _ => false

/-- What the goroutine of `Start` does on its own, and failing to connect. -/
def _root_.Verif.Model.CtrEv.windsUp : CtrEv → Bool
  | .dialFail | .sessionFail | .interrupted | .handler .. | .again | .ended => true
  | _ => false

end Verif.Spec
