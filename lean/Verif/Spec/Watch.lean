import Verif.Model.Watch

/-!
# Specification vocabulary for the watch
-/
namespace Verif.Spec
open Verif Verif.Model

/-- The watch when `newWatch` has registered the handlers, at time `t`. -/
def watchStart (t : Int) : Watch := { now := t }

/-- The times of the activity recorded so far. -/
def activity (evs : List WEv) : List Int := evs.filterMap fun ev => match ev with | .store a => some a | _ => none

/-- Events of the goroutine of `run` (its select taking the context's case excepted). -/
def isWatchStep : WEv → Bool
  | .start _ | .init _ | .expiry | .renew _ | .decide _ | .forget | .takeTick | .observe _ | .nothing | .update _ | .stop | .drain | .reset _ | .noTimer => true
  | _ => false

def isReset : WEv → Bool
  | .reset _ => true
  | _ => false

/-- Runs in which each handler stores what it read less than `D` after it has read the clock. -/
inductive PromptRun (cfg : WatchCfg) (D : Int) : Watch → List WEv → Watch → Prop
  | nil {s : Watch} : s.inflight = [] → PromptRun cfg D s [] s
  | snoc {s s' s'' : Watch} {evs : List WEv} {ev : WEv} : PromptRun cfg D s evs s' → Watch.Step cfg s' ev s'' → (∀ a ∈ s''.inflight, s''.now < a + D) →
      PromptRun cfg D s (evs ++ [ev]) s''

/-- No message is handled and the context does not end. -/
def Silent (evs : List WEv) : Prop := ∀ ev ∈ evs, (∀ a, ev ≠ .store a) ∧ ev ≠ .cancel

end Verif.Spec
