import Verif.Model.VancapForward

/-!
# Specification for the end of a capture
-/
namespace Verif.Spec
open Verif Verif.Model

/-- A step of the capture that failed: the file could not be created, the request was not answered, the answer could not be copied. -/
def VfEv.failure : VfEv → Bool
  | .create ok => !ok
  | .request resp => resp.isNone
  | .copy fails => fails.isSome
  | _ => false

/-- All is well where nothing is said. -/
def allWell : VancapEnv :=
  { routerFound := true, createOk := true, pods := some ["vanflow-server"], waited := true, roundTripperOk := true, forwarderOk := true
    forward := .ready, fileOk := true, response := some (200, ""), copyFails := none }

/-- What is learnt about the surroundings from one event. -/
def VfEv.learn (e : VancapEnv) : VfEv → VancapEnv
  | .create ok => { e with fileOk := ok }
  | .request resp => { e with response := resp }
  | .copy fails => { e with copyFails := fails }
  | _ => e

/-- What the run met, as the surroundings of a run that has nothing beside it. -/
def surroundings (evs : List VfEv) : VancapEnv := evs.foldl VfEv.learn allWell

end Verif.Spec
