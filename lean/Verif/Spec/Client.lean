import Verif.Model.Client

/-!
# Specification vocabulary for the client: what can be read off the events of a run
-/
namespace Verif.Spec
open Verif Verif.Model

/-- The handler calls of listener `l`, in order. -/
def callsOf (l : Nat) (evs : List ClEv) : List (Nat × Decoded) :=
  evs.filterMap fun ev => match ev with | .call l' h d => if l' = l then some (h, d) else none | _ => none

/-- The messages listener `l` has received and accepted and that can be decoded, decoded, in order. -/
def decodedOf (reg : Registry) (l : Nat) (evs : List ClEv) : List Decoded :=
  evs.filterMap fun ev => match ev with
    | .accepted l' m => if l' = l then (match decodeMsg reg (some m) with | .ok d => some d | _ => none) else none
    | _ => none

/-- The handlers registered for messages of the kind of `d`, in registration order. -/
def registeredFor (d : Decoded) (evs : List ClEv) : List Nat :=
  evs.filterMap fun ev => match ev, d with
    | .onRecord h, .record _ => some h
    | .onHeartbeat h, .heartbeat _ => some h
    | _, _ => none

/-- The calls a listener still has to make for the message it works on. -/
def callsLeft : LPC → List (Nat × Decoded)
  | .calling d hs => hs.map (·, d)
  | _ => []

/-- The message for which a listener has not yet looked up the handlers. -/
def notLooked : LPC → List Decoded
  | .fetching d => [d]
  | _ => []

/-- A listener whose goroutine (or `Listen` call) counts in the wait group. -/
def unfinished (x : Listener) : Bool :=
  match x.pc with
  | .finished => false
  | _ => true

/-- A listener that needs the client's lock to go on. -/
def NeedsLock : LPC → Prop
  | .adding | .fetching _ => True
  | _ => False

/-- A listener that works without needing the lock and without a message still to decode. -/
def Settled : LPC → Prop
  | .receiving | .calling _ _ | .finished => True
  | _ => False

/-- The error is the other one, or wraps it. -/
inductive Caused : GoErr → GoErr → Prop where
  | same {e : GoErr} : Caused e e
  | wrapped {m : String} {e c : GoErr} : Caused e c → Caused (.wrap m e) c

/-- No new listeners and no new messages. -/
def Quiet (evs : List ClEv) : Prop := ∀ ev ∈ evs, ev ≠ .listen ∧ ∀ l m, ev ≠ .delivered l m

def isClose : ClEv → Bool
  | .close => true
  | _ => false

def isFfSend : FfEv → Bool
  | .send .. => true
  | _ => false

def isFfHandled : FfEv → Bool
  | .handled => true
  | _ => false

end Verif.Spec
