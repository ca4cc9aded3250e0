import Verif.Model.Manager

/-!
# Specification vocabulary: how a manager comes to stop
-/
namespace Verif.Spec
open Verif Verif.Model

/-- The goroutine of the manager waits, and the end of its context is one of the things it waits for. -/
def AtSelect : ServePC → Prop
  | .idle | .buffering _ | .sendUpdate _ | .draining _ | .sendFlush _ _ _ => True
  | _ => False

/-- The goroutine has ended. -/
def Ended : ServePC → Prop
  | .stopped | .crashed => True
  | _ => False

/-- A run in which the goroutine itself (and not a publisher, a store, the sender or the network) moved `moves` times; `passed` of the moves began at
a point where it waited for the end of its context among other things. -/
inductive Moves (cfg : MgrConfig) (s : Mgr) : Nat → Nat → Mgr → Prop where
  | nil : Moves cfg s 0 0 s
  | others {n d : Nat} {s' s'' : Mgr} {ev : MgrEv} : Moves cfg s n d s' → Mgr.Step cfg s' ev s'' → s''.pc = s'.pc ∨ Ended s'.pc →
      Moves cfg s n d s''
  | move {n d : Nat} {s' s'' : Mgr} {ev : MgrEv} : Moves cfg s n d s' → Mgr.Step cfg s' ev s'' → s''.pc ≠ s'.pc → ¬ Ended s'.pc →
      ¬ AtSelect s'.pc → Moves cfg s (n + 1) d s''
  | pass {n d : Nat} {s' s'' : Mgr} {ev : MgrEv} : Moves cfg s n d s' → Mgr.Step cfg s' ev s'' → s''.pc ≠ s'.pc → AtSelect s'.pc →
      Moves cfg s (n + 1) (d + 1) s''

end Verif.Spec
