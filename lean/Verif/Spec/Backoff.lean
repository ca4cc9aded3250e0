import Verif.Model.Backoff

/-!
# Specification of the retry limit: what a run says about successes and failures
-/
namespace Verif.Spec
open Verif.Model

/-- The clock after a run that began at `t`. -/
def clockAfter (t : Int) : List BoEv → Int
  | [] => t
  | .time u :: evs => clockAfter u evs
  | _ :: evs => clockAfter t evs

/-- Container `i` has a session after the run. -/
def hasSession (i : Nat) (evs : List BoEv) : Bool :=
  evs.foldl (fun b ev =>
    match ev with
    | .up j => if j = i then true else b
    | .down j | .giveUp j => if j = i then false else b
    | _ => b) false

/-- The time of the last report of success or start of a container in a run from time 0. -/
def lastReset (evs : List BoEv) : Int :=
  (evs.foldl (fun (p : Int × Int) ev =>
    match ev with
    | .time u => (u, p.2)
    | .start _ => (p.1, p.1)
    | .report _ => (p.1, p.1)
    | _ => p) (0, 0)).2

/-- Only container `i` takes part. -/
def OnlyContainer (i : Nat) (evs : List BoEv) : Prop :=
  ∀ ev ∈ evs, match ev with
    | .time _ => True
    | .start j | .up j | .report j | .down j | .giveUp j | .retry j => j = i

/-- How often container `i` has failed. -/
def failures (i : Nat) (evs : List BoEv) : Nat := evs.count (.down i)

/-- What a container is doing. -/
inductive Life where
  | notStarted | attempt | session | pause | over
deriving DecidableEq, Repr

/-- The order of the events of container `i`: an attempt, perhaps a session, a failure, a pause, the next attempt; or the end, after which there is nothing.  `none`: out of order. -/
def lifeStep (i : Nat) (l : Option Life) (ev : BoEv) : Option Life :=
  match ev with
  | .time _ => l
  | .start j => if j = i then (if l = some .notStarted then some .attempt else none) else l
  | .up j => if j = i then (if l = some .attempt then some .session else none) else l
  | .report j => if j = i then (if l = some .session then some .session else none) else l
  | .down j => if j = i then (if l = some .attempt ∨ l = some .session then some .pause else none) else l
  | .giveUp j => if j = i then (if l = some .attempt ∨ l = some .session then some .over else none) else l
  | .retry j => if j = i then (if l = some .pause then some .attempt else none) else l

end Verif.Spec
