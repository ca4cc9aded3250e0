import Verif.Model.Watch

/-!
# The watch on a machine that is not slow (`/repo/eventsource/discovery.go:194-250`)

The runs of `Watch` in which time goes on only as far as a bound on lateness allows: the goroutine takes its next step at once, a timer and a tick are late by at most `late`.  (The time the
goroutine needs for its steps is counted to the lateness of the timers.)
-/
namespace Verif.Model
open Verif

/-- Time may go on to `t`. -/
structure Watch.MayPass (late : Int) (s : Watch) (t : Int) : Prop where
  /-- the goroutine waits in its select, or does not run -/
  waits : s.pc = .select ∨ s.pc = .spawned ∨ s.pc = .done
  /-- nothing to select -/
  idle : s.pc = .select → s.cancelled = false ∧ (∀ d, s.timer ≠ .fired d) ∧ s.ticker.pending = false
  timer : ∀ d, s.timer = .armed d → s.pc = .select → t ≤ d + late
  ticker : s.pc = .select → t ≤ s.ticker.next + late

inductive Watch.TRun (cfg : WatchCfg) (late : Int) : Watch → List WEv → Watch → Prop where
  | nil {s : Watch} : Watch.TRun cfg late s [] s
  | snoc {s s' s'' : Watch} {evs : List WEv} {ev : WEv} : Watch.TRun cfg late s evs s' → Watch.Step cfg s' ev s'' → (ev = .time → s'.MayPass late s''.now) →
      Watch.TRun cfg late s (evs ++ [ev]) s''

end Verif.Model
