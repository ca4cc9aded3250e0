import Verif.Model.RecvLoop
import Verif.Spec.Container

/-!
# What a loop that receives messages is asked to do

To handle each message that is received once, in order, and nothing else, until its context ends.
-/
namespace Verif.Spec
open Verif Verif.Model

/-- The messages received, in order. -/
def loopReceived : List LoopEv → List (Option Nat)
  | [] => []
  | .received m :: evs => some m :: loopReceived evs
  | _ :: evs => loopReceived evs

/-- What was handled, in order. -/
def loopHandled : List LoopEv → List (Option Nat)
  | [] => []
  | .handled m :: evs => m :: loopHandled evs
  | _ :: evs => loopHandled evs

/-- The messages whose acceptance failed. -/
def loopRefused : List LoopEv → List (Option Nat)
  | [] => []
  | .acceptErr m _ :: evs => m :: loopRefused evs
  | _ :: evs => loopRefused evs

/-- The messages received, and a nil message for each error of Next that is not the error of a context. -/
def loopArrived (ctx : GoErr) : List LoopEv → List (Option Nat)
  | [] => []
  | .received m :: evs => some m :: loopArrived ctx evs
  | .nextErr e :: evs => if errorsIs (some e) (some ctx) then loopArrived ctx evs else none :: loopArrived ctx evs
  | _ :: evs => loopArrived ctx evs

/-- Errors of Next other than the end of the context. -/
def strayErrors (ctx : GoErr) : List LoopEv → Nat
  | [] => 0
  | .nextErr e :: evs => (if errorsIs (some e) (some ctx) then 0 else 1) + strayErrors ctx evs
  | _ :: evs => strayErrors ctx evs

/-- The message a loop has in hand. -/
def loopInHand (s : RSys) : List (Option Nat) :=
  match s.pc with
  | .accept m | .inAccept _ m | .handle m => [m]
  | _ => []

/-- A session was established. -/
def isSession : CtrEv → Bool
  | .session _ => true
  | _ => false

end Verif.Spec
