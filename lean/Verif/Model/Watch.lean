import Verif.Model.Keepalive

/-!
# Model of the watch in `/repo/eventsource/discovery.go`, lines 139-258

A transition system of the goroutine of `watch.run`, its timer and ticker, the clock, and the goroutines that deliver messages to the handlers registered by
`newWatch`.  A handler is two steps: it reads the clock, and it stores what it read.  Timers are those of Go before 1.23 (the module's go.mod says 1.21): their
channel holds one value, and Stop does not empty it.  Calls of `Discovery.lastSeen` and `Discovery.Forget` are single steps (their own behaviour
is in `Verif/Model/Discovery.lean`); so is the deferred `client.Close` (in `Verif/Model/Client.lean`).
-/
namespace Verif.Model
open Verif

/-- discovery.go:139-157, and the number of goroutines that deliver messages (one for each `Listen` of the client). -/
structure WatchCfg where
  timeout : Int := 0
  grace : Int := 0
  interval : Int := 0
  listeners : Nat := 1

/-- discovery.go:209-212: the period of the ticker, in nanoseconds. -/
def WatchCfg.period (c : WatchCfg) : Int := if c.interval ≤ 0 then 1000000000 else c.interval

/-- The watch timer and its channel. -/
inductive WTimer where
  /-- there is no timer (Timeout is not positive) -/
  | off
  | armed (at_ : Int)
  /-- it fired, and the value waits in the channel -/
  | fired (at_ : Int)
  /-- stopped, or its value was received -/
  | idle
deriving DecidableEq

inductive WPC where
  /-- before line 201 -/
  | spawned
  /-- line 218 -/
  | init
  /-- line 220 -/
  | select
  /-- line 226 -/
  | gotTimer
  /-- line 228 -/
  | forgetting
  /-- line 235 -/
  | gotTick
  /-- lines 231 and 240; the flag says whether the timer's case was taken -/
  | updating (next : Int) (byTimer : Bool)
  /-- lines 241, 242 -/
  | stopping (next : Int)
  /-- line 243 -/
  | draining (next : Int)
  /-- lines 232, 233 and 245, 247 -/
  | resetting (next : Int)
  | done
deriving DecidableEq

structure Watch where
  now : Int
  cancelled : Bool := false
  /-- `w.lastSeen`; none is the nil pointer -/
  lastSeen : Option Int := none
  /-- handlers between lines 184 and 185 (or 189 and 190), with what they read -/
  inflight : List Int := []
  /-- `prevObserved`; none is the zero time, which is before all clock readings -/
  prev : Option Int := none
  timer : WTimer := .off
  ticker : Ticker := ⟨0, false⟩
  pc : WPC := .spawned

inductive WEv where
  /-- the clock moves -/
  | time
  | cancel
  /-- a handler reads the clock -/
  | stamp (a : Int)
  /-- a handler stores what it read: activity at time `a` is recorded -/
  | store (a : Int)
  | fire
  | tick
  /-- `run` starts: the timer is created at time `t` -/
  | start (t : Int)
  /-- the first look at lastSeen, at time `t` -/
  | init (t : Int)
  /-- the select takes the timer's case -/
  | expiry
  /-- the timer's case finds new activity -/
  | renew (next : Int)
  /-- the timer's case finds no new activity, at time `t` -/
  | decide (t : Int)
  | forget
  | takeTick
  /-- the ticker's case finds new activity -/
  | observe (next : Int)
  /-- the ticker's case finds none -/
  | nothing
  /-- `Discovery.lastSeen` -/
  | update (next : Int)
  | stop
  | drain
  /-- the timer is set again, at time `t` -/
  | reset (t : Int)
  /-- the ticker's case is done when there is no timer -/
  | noTimer
  | return_
deriving DecidableEq

/-- discovery.go:252-258 -/
def advanceLastSeen (current prev : Option Int) : Option Int :=
  match current, prev with
  | none, _ => none
  | some c, none => some c
  | some c, some p => if c > p then some c else none

inductive Watch.Step (cfg : WatchCfg) : Watch → WEv → Watch → Prop where
  | time {s : Watch} (t : Int) : s.now ≤ t → Watch.Step cfg s .time { s with now := t }
  | cancel {s : Watch} : Watch.Step cfg s .cancel { s with cancelled := true }
  /-- discovery.go:184, 189 -/
  | stamp {s : Watch} : s.inflight.length < cfg.listeners → Watch.Step cfg s (.stamp s.now) { s with inflight := s.inflight ++ [s.now] }
  /-- discovery.go:185, 190 -/
  | store {s : Watch} (l r : List Int) (a : Int) : s.inflight = l ++ a :: r →
      Watch.Step cfg s (.store a) { s with inflight := l ++ r, lastSeen := some a }
  | fire {s : Watch} {d : Int} : s.timer = .armed d → d ≤ s.now → Watch.Step cfg s .fire { s with timer := .fired d }
  | tick {s : Watch} : s.pc ≠ .spawned → s.ticker.next ≤ s.now →
      Watch.Step cfg s .tick { s with ticker := s.ticker.fire cfg.period s.now }
  /-- discovery.go:201-215 -/
  | start {s : Watch} : s.pc = .spawned →
      Watch.Step cfg s (.start s.now)
        { s with timer := if cfg.timeout > 0 then .armed (s.now + (cfg.grace + cfg.timeout)) else .off
                 ticker := ⟨s.now + cfg.period, false⟩
                 pc := .init }
  /-- discovery.go:218 -/
  | init {s : Watch} : s.pc = .init →
      Watch.Step cfg s (.init s.now) { s with prev := (advanceLastSeen s.lastSeen s.prev).or s.prev, pc := .select }
  /-- discovery.go:221-222 -/
  | return_ {s : Watch} : s.pc = .select → s.cancelled = true → Watch.Step cfg s .return_ { s with pc := .done }
  /-- discovery.go:223 -/
  | expiry {s : Watch} {d : Int} : s.pc = .select → s.timer = .fired d → Watch.Step cfg s .expiry { s with timer := .idle, pc := .gotTimer }
  /-- discovery.go:226-227, 231 -/
  | renew {s : Watch} {next : Int} : s.pc = .gotTimer → advanceLastSeen s.lastSeen s.prev = some next →
      Watch.Step cfg s (.renew next) { s with pc := .updating next true }
  /-- discovery.go:226-228 -/
  | decide {s : Watch} : s.pc = .gotTimer → advanceLastSeen s.lastSeen s.prev = none →
      Watch.Step cfg s (.decide s.now) { s with pc := .forgetting }
  /-- discovery.go:228-229 -/
  | forget {s : Watch} : s.pc = .forgetting → Watch.Step cfg s .forget { s with pc := .done }
  /-- discovery.go:234 -/
  | takeTick {s : Watch} : s.pc = .select → s.ticker.pending = true →
      Watch.Step cfg s .takeTick { s with ticker := { s.ticker with pending := false }, pc := .gotTick }
  /-- discovery.go:235-238 -/
  | nothing {s : Watch} : s.pc = .gotTick → advanceLastSeen s.lastSeen s.prev = none → Watch.Step cfg s .nothing { s with pc := .select }
  /-- discovery.go:235 -/
  | observe {s : Watch} {next : Int} : s.pc = .gotTick → advanceLastSeen s.lastSeen s.prev = some next →
      Watch.Step cfg s (.observe next) { s with pc := .updating next false }
  /-- discovery.go:231, 240 -/
  | update {s : Watch} {next : Int} {byTimer : Bool} : s.pc = .updating next byTimer →
      Watch.Step cfg s (.update next) { s with pc := if byTimer then .resetting next else .stopping next }
  /-- discovery.go:241, 247: no timer -/
  | noTimer {s : Watch} {next : Int} : s.pc = .stopping next → s.timer = .off →
      Watch.Step cfg s .noTimer { s with prev := some next, pc := .select }
  /-- discovery.go:242: Stop is in time -/
  | stopTrue {s : Watch} {next d : Int} : s.pc = .stopping next → s.timer = .armed d →
      Watch.Step cfg s .stop { s with timer := .idle, pc := .resetting next }
  /-- discovery.go:242: Stop is too late -/
  | stopFalse {s : Watch} {next : Int} : s.pc = .stopping next → s.timer ≠ .off → (∀ d, s.timer ≠ .armed d) →
      Watch.Step cfg s .stop { s with pc := .draining next }
  /-- discovery.go:243; blocks while there is no value in the channel -/
  | drain {s : Watch} {next d : Int} : s.pc = .draining next → s.timer = .fired d →
      Watch.Step cfg s .drain { s with timer := .idle, pc := .resetting next }
  /-- discovery.go:232-233, 245-247 -/
  | reset {s : Watch} {next : Int} : s.pc = .resetting next →
      Watch.Step cfg s (.reset s.now) { s with timer := .armed (s.now + cfg.timeout), prev := some next, pc := .select }

inductive Watch.Run (cfg : WatchCfg) : Watch → List WEv → Watch → Prop where
  | nil {s : Watch} : Watch.Run cfg s [] s
  | snoc {s s' s'' : Watch} {evs : List WEv} {ev : WEv} : Watch.Run cfg s evs s' → Watch.Step cfg s' ev s'' → Watch.Run cfg s (evs ++ [ev]) s''

end Verif.Model
