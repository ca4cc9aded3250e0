import Verif.Model.Manager

/-!
# Specification vocabulary for the manager: what can be read off the events of a run
-/
namespace Verif.Spec
open Verif Verif.Model

/-- The updates published, in order. -/
def published (evs : List MgrEv) : List RecordUpdate :=
  evs.filterMap fun ev => match ev with | .publish u => some u | _ => none

/-- The update messages queued for sending, in order. -/
def updateMsgs (evs : List MgrEv) : List (List (GoRec GoTime)) :=
  evs.filterMap fun ev => match ev with | .queueUpdate m => some m | _ => none

/-- The flush messages queued for sending, in order. -/
def flushMsgs (evs : List MgrEv) : List (List (GoRec GoTime)) :=
  evs.filterMap fun ev => match ev with | .queueFlush m => some m | _ => none

/-- All messages queued for sending, in order. -/
def queued (evs : List MgrEv) : List (List (GoRec GoTime)) :=
  evs.filterMap fun ev => match ev with | .queueUpdate m => some m | .queueFlush m => some m | _ => none

/-- The messages the sender is done with, in order: sent, skipped, given up or panicked on. -/
def handled (evs : List MgrEv) : List (List (GoRec GoTime)) :=
  evs.filterMap fun ev => match ev with | .sent m _ => some m | .skipped m => some m | .sendFailed m => some m | .sendPanicked m => some m | _ => none

/-- The differences to be sent for some updates, in order. -/
def diffsOf (us : List RecordUpdate) : List (GoRec GoTime) :=
  us.filterMap fun u => match diffRecord u with | .ok (some d) => some d | _ => none

/-- The manager as made by NewManager, with stores in any state. -/
def Fresh (s : Mgr) : Prop := s.changeQueue = [] ∧ s.flushQueue = 0 ∧ s.sendQueue = [] ∧ s.pc = .idle ∧ s.cancelled = false ∧ s.snd = .waiting

/-- An event that does not come from outside the manager. -/
def Internal : MgrEv → Prop
  | .publish _ | .flushReceived | .receiveError | .storeOp _ _ | .cancel => False
  | _ => True

end Verif.Spec
