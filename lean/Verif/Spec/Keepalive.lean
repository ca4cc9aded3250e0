import Verif.Model.Keepalive

/-!
# Specification vocabulary for keepalives
-/
namespace Verif.Spec
open Verif Verif.Model

/-- The state when the goroutine starts at time `t`. -/
def kaStart (t : Int) : Ka := { now := t }

/-- A sender that is never acknowledged: it returns only when the context it was given has ended, with that context's error. -/
def patient : Callee := fun ctx r => ∃ e, ctx = some e ∧ r = some e

/-- A sender that does not deliver once the context it was given has ended. -/
def Refuses (snd : Callee) : Prop := ∀ e, ¬ snd (some e) none

/-- A sender that returns once the context it was given has ended. -/
def Returns (snd : Callee) : Prop := ∀ e, ∃ r, snd (some e) r

/-- Events of the goroutine itself. -/
def isOwn : KaEv → Bool
  | .begin_ .. | .end_ .. | .stop => true
  | _ => false

/-- A send of a kind begins. -/
def isBegin (k : KaKind) : KaEv → Bool
  | .begin_ k' _ _ => decide (k' = k)
  | _ => false

end Verif.Spec
