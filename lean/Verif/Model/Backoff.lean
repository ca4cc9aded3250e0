/-!
# Model of how a container uses its retry limit (`/repo/session/container.go:157-218`, `/repo/session/factory.go:38-40`)

The timed counterpart of `Verif/Model/Container.lean`, reduced to what decides when `backoff.RetryNotify` (v4.2.1) gives up.  Any number of containers
use one `backoff.ExponentialBackOff`, as those of one factory do (`Config.BackOff` is an interface value holding a pointer, copied by `Create`); one container with its own is the
case where only that one ever starts.  Times and durations are integers.

`retry.go`: `RetryNotify` calls `Reset` once, before the first attempt; after a failed attempt it calls `NextBackOff`.
`exponential.go`: `Reset` sets `startTime` to now; `NextBackOff` returns `Stop` when `MaxElapsedTime` is not 0 and `elapsed + next > MaxElapsedTime`, where `elapsed` is the
time since `startTime`, and `next` is random; here it is any duration of at least 0.  Not modelled: how `next` grows, and that the type is not safe for concurrent use.
-/
namespace Verif.Model

/-- Where a container is. -/
inductive BoPhase where
  | idle
  /-- container.go:173-180 -/
  | dialing
  /-- container.go:194: it has a session -/
  | serving
  /-- retry.go: the wait before the next attempt -/
  | waiting (until_ : Int)
  /-- NextBackOff returned Stop -/
  | gaveUp
deriving DecidableEq, Repr

structure Bo where
  now : Int := 0
  /-- `ExponentialBackOff.startTime` -/
  startTime : Int := 0
  phase : Nat → BoPhase := fun _ => .idle

inductive BoEv where
  | time (t : Int)
  /-- container `i` is started -/
  | start (i : Nat)
  /-- a session is established -/
  | up (i : Nat)
  /-- a success is reported: a message was sent or accepted -/
  | report (i : Nat)
  /-- an attempt or a session fails -/
  | down (i : Nat)
  /-- an attempt or a session fails, and it is the last one -/
  | giveUp (i : Nat)
  | retry (i : Nat)
deriving DecidableEq, Repr

def Bo.at (s : Bo) (i : Nat) (p : BoPhase) : Bo := { s with phase := fun j => if j = i then p else s.phase j }

/-- `max` is MaxElapsedTime. -/
inductive Bo.Step (max : Int) : Bo → BoEv → Bo → Prop where
  | time {s : Bo} (t : Int) : s.now ≤ t → Bo.Step max s (.time t) { s with now := t }
  /-- retry.go: `b.Reset()` -/
  | start {s : Bo} {i : Nat} : s.phase i = .idle → Bo.Step max s (.start i) { s.at i .dialing with startTime := s.now }
  /-- container.go:181-194 -/
  | up {s : Bo} {i : Nat} : s.phase i = .dialing → Bo.Step max s (.up i) (s.at i .serving)
  /-- container.go:198-201 -/
  | report {s : Bo} {i : Nat} : s.phase i = .serving → Bo.Step max s (.report i) { s with startTime := s.now }
  /-- container.go:175, 179, 204; NextBackOff gives a duration -/
  | down {s : Bo} {i : Nat} {next : Int} : (s.phase i = .dialing ∨ s.phase i = .serving) → 0 ≤ next →
      ¬ (max ≠ 0 ∧ s.now - s.startTime + next > max) → Bo.Step max s (.down i) (s.at i (.waiting (s.now + next)))
  /-- NextBackOff gives Stop -/
  | giveUp {s : Bo} {i : Nat} {next : Int} : (s.phase i = .dialing ∨ s.phase i = .serving) → 0 ≤ next →
      (max ≠ 0 ∧ s.now - s.startTime + next > max) → Bo.Step max s (.giveUp i) (s.at i .gaveUp)
  | retry {s : Bo} {i : Nat} {u : Int} : s.phase i = .waiting u → u ≤ s.now → Bo.Step max s (.retry i) (s.at i .dialing)

inductive Bo.Run (max : Int) : Bo → List BoEv → Bo → Prop where
  | nil {s : Bo} : Bo.Run max s [] s
  | snoc {s s' s'' : Bo} {evs : List BoEv} {ev : BoEv} : Bo.Run max s evs s' → Bo.Step max s' ev s'' → Bo.Run max s (evs ++ [ev]) s''

end Verif.Model
