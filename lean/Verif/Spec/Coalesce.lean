import Verif.Spec.Manager

/-!
# Specification vocabulary for the coalescing of flush requests
-/
namespace Verif.Spec
open Verif Verif.Model

/-- The requests for a flush: messages received and failures to receive. -/
def isRequest : MgrEv → Bool
  | .flushReceived | .receiveError => true
  | _ => false

/-- The flushes begun. -/
def isFlushBegin : MgrEv → Bool
  | .flushBegin => true
  | _ => false

/-- A run in which no request ever finds the queue of eight requests full. -/
inductive RoomyRun (cfg : MgrConfig) (s0 : Mgr) : List MgrEv → Mgr → Prop where
  | nil : RoomyRun cfg s0 [] s0
  | snoc {s s' : Mgr} {evs : List MgrEv} {ev : MgrEv} : RoomyRun cfg s0 evs s → (isRequest ev = true → s.flushQueue < 8) → Mgr.Step cfg s ev s' →
      RoomyRun cfg s0 (evs ++ [ev]) s'

theorem RoomyRun.run {cfg : MgrConfig} {s0 s : Mgr} {evs : List MgrEv} (h : RoomyRun cfg s0 evs s) : Mgr.Run cfg s0 evs s := by
  induction h with
  | nil => exact .nil
  | snoc _ _ hs ih => exact .snoc ih hs

end Verif.Spec
