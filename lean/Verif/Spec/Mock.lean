import Verif.Model.Mock

/-! # What is said about the mock router, on its events alone -/
namespace Verif.Spec
open Verif.Model

/-- What Next has returned for a receiver. -/
def received (r : Nat) : List MockEv → List Nat
  | [] => []
  | .recv r' m :: t => if r' = r then m :: received r t else received r t
  | _ :: t => received r t

/-- The messages sent to an address, in the order in which they were sent. -/
def sentTo (a : String) : List MockEv → List Nat
  | [] => []
  | .accepted _ a' m :: t => if a' = a then m :: sentTo a t else sentTo a t
  | _ :: t => sentTo a t

/-- Those sent after the receiver was subscribed. -/
def sentAfter (r : Nat) (a : String) : List MockEv → List Nat
  | [] => []
  | .subscribed r' :: t => if r' = r then sentTo a t else sentAfter r a t
  | _ :: t => sentAfter r a t

/-- The message of the `o`-th Send is sent. -/
def isAccepted (o : Nat) : MockEv → Bool
  | .accepted o' _ _ => o' == o
  | _ => false

end Verif.Spec
