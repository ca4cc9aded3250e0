import Verif.Model.ToolServer

/-!
# Specification for the end of the commands
-/
namespace Verif.Spec
open Verif Verif.Model

/-- Steps of the program itself and of its timer; the others come from outside: signals, requests and their answers, the network. -/
def ToolEv.own : ToolEv → Bool
  | .interrupt | .request | .answer | .giveUp | .serverError => false
  | _ => true

/-- `ev` happens after `first`. -/
def laterEv (first ev : ToolEv) (evs : List ToolEv) : Prop := ∃ a b, evs = a ++ ev :: b ∧ first ∈ a

/-- The requests that are being answered after the events. -/
def openRequests : List ToolEv → Int
  | [] => 0
  | .request :: evs => openRequests evs + 1
  | .answer :: evs => openRequests evs - 1
  | _ :: evs => openRequests evs

/-- What the server last did. -/
def serverDoes : List ToolEv → SrvPC
  | [] => .none
  | .setup .goServe :: _ => .spawned
  | .listen true :: _ => .listening
  | .listen false :: _ => .failed
  | .serverError :: _ => .failed
  | .serverClosed :: _ => .closed
  | _ :: evs => serverDoes evs

end Verif.Spec
