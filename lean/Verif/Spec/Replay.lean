import Verif.Model.Replay

/-!
# Specification: replays
-/
namespace Verif.Spec
open Verif Verif.Model

/-- The flows of the replays that have ended. -/
def flowsReplayed (evs : List RqEv) : Nat :=
  (evs.map fun ev =>
    match ev with
    | .finished _ flows => flows
    | _ => 0).sum

end Verif.Spec
