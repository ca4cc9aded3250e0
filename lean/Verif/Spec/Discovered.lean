import Verif.Model.Discovered

/-!
# What C83 speaks about
-/
namespace Verif.Spec
open Verif Verif.Model

/-- A message is handed to the sender. -/
def isFlSend : FlEv → Bool
  | .inner (.send ..) => true
  | .send .. => true
  | _ => false

/-- A sender has reported success. -/
def Accepted (evs : List FlEv) : Prop := FlEv.inner (.return_ none) ∈ evs ∨ FlEv.sent none ∈ evs

/-- A sender that fails only because the context it was given has ended, and then says so. -/
def FailsOnlyByContext (snd : Callee) : Prop := ∀ c r, snd c r → r = none ∨ ∃ e c', r = some e ∧ c = some c' ∧ e.is c' = true

/-- What the surroundings do: time, shutdown, messages handled by the client. -/
def isFlEnv : FlEv → Bool
  | .timeout | .shutdown | .inner .handled => true
  | _ => false

end Verif.Spec
