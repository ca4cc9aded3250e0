import Verif.Model.Watch

/-!
# A source and the watch that looks after it (`/repo/eventsource/manager.go:228-307` with `/repo/eventsource/discovery.go:139-258`)

`Ka` (the goroutine that sends the keepalives of a source) and `Watch` (the goroutine that forgets the source) run in two processes and share the clock and the network.  Here they run
together.  The steps are those of `Ka.Step` and `Watch.Step`; added are the messages under way, and bounds on how late things may be (`Delays`): only with such bounds can a watch tell
a live source from a dead one.

Simplifications: the source is not told to stop; each heartbeat that is sent while the client listens is handled by the watch's handler (discovery.go:183-186), none is lost; the time
between a tick and the call of Send is counted to the send.
-/
namespace Verif.Model
open Verif

/-- Bounds on delays, in nanoseconds. -/
structure Delays where
  /-- a call of `sender.Send` returns within this time (manager.go:333) -/
  send : Int
  /-- a tick of a ticker is at most that late -/
  tick : Int
  /-- the handler of the watch has stored the time in less than this time after the call of Send -/
  deliver : Int

structure Alive where
  ka : Ka
  w : Watch
  /-- when the first beacon had been sent (manager.go:267) -/
  announced : Option Int := none
  /-- when `client.Listen` had set up the receiver -/
  listening : Option Int := none
  /-- when heartbeats were sent -/
  sent : List Int := []
  /-- the heartbeats not handled yet, by the time they were sent -/
  net : List Int := []
  /-- the messages whose handlers are between discovery.go:184 and 185 (or 189 and 190), by the time they were sent and the time the handler read -/
  handling : List (Int × Int) := []

inductive AlEv where
  | time
  | listen
  | src (e : KaEv)
  | watch (e : WEv)
deriving DecidableEq

/-- Time may go on to `t`: nothing would be later than allowed. -/
structure Alive.MayPass (d : Delays) (s : Alive) (t : Int) : Prop where
  send : ∀ k b u r, s.ka.pc = .sending k b u r → t ≤ b + d.send
  /-- a waiting tick is taken at once -/
  loop : s.ka.pc = .loop → s.ka.heartbeatTick.pending = false ∧ s.ka.beaconTick.pending = false
  ticks : s.announced.isSome = true → t ≤ s.ka.heartbeatTick.next + d.tick ∧ t ≤ s.ka.beaconTick.next + d.tick
  net : ∀ b ∈ s.net, t < b + d.deliver
  handling : ∀ p ∈ s.handling, t < p.1 + d.deliver
  /-- discovery.go:218 is reached at once -/
  init : s.w.pc ≠ .init

/-- Steps of the source that need no further note. -/
def KaEv.plain : KaEv → Bool
  | .time | .cancel _ | .end_ .initial .ok | .begin_ .heartbeat _ _ => false
  | _ => true

/-- Steps of the watch that need no further note. -/
def WEv.plain : WEv → Bool
  | .time | .stamp _ | .store _ => false
  | _ => true

inductive Alive.Step (kc : KaConfig) (wc : WatchCfg) (d : Delays) (snd : Callee) : Alive → AlEv → Alive → Prop where
  | time {s : Alive} (t : Int) : s.ka.now ≤ t → s.MayPass d t → Alive.Step kc wc d snd s .time { s with ka := { s.ka with now := t }, w := { s.w with now := t } }
  | listen {s : Alive} : s.listening = none → Alive.Step kc wc d snd s .listen { s with listening := some s.ka.now }
  | src {s : Alive} {e : KaEv} {ka : Ka} : Ka.Step kc snd s.ka e ka → e.plain = true → Alive.Step kc wc d snd s (.src e) { s with ka := ka }
  | announce {s : Alive} {ka : Ka} : Ka.Step kc snd s.ka (.end_ .initial .ok) ka → Alive.Step kc wc d snd s (.src (.end_ .initial .ok)) { s with ka := ka, announced := some s.ka.now }
  | heartbeat {s : Alive} {a : String} {m : Msg} {ka : Ka} : Ka.Step kc snd s.ka (.begin_ .heartbeat a m) ka →
      Alive.Step kc wc d snd s (.src (.begin_ .heartbeat a m))
        { s with ka := ka, sent := s.sent ++ [s.ka.now], net := if s.listening.isSome then s.net ++ [s.ka.now] else s.net }
  /-- a heartbeat reaches its handler -/
  | handle {s : Alive} {l r : List Int} {b a : Int} {w : Watch} : s.net = l ++ b :: r → Watch.Step wc s.w (.stamp a) w →
      Alive.Step kc wc d snd s (.watch (.stamp a)) { s with net := l ++ r, handling := s.handling ++ [(b, a)], w := w }
  /-- a record reaches its handler -/
  | record {s : Alive} {a : Int} {w : Watch} : s.listening.isSome = true → Watch.Step wc s.w (.stamp a) w →
      Alive.Step kc wc d snd s (.watch (.stamp a)) { s with handling := s.handling ++ [(s.ka.now, a)], w := w }
  | store {s : Alive} {l r : List (Int × Int)} {b a : Int} {w : Watch} : s.handling = l ++ (b, a) :: r → Watch.Step wc s.w (.store a) w →
      Alive.Step kc wc d snd s (.watch (.store a)) { s with handling := l ++ r, w := w }
  | watch {s : Alive} {e : WEv} {w : Watch} : Watch.Step wc s.w e w → e.plain = true → Alive.Step kc wc d snd s (.watch e) { s with w := w }

inductive Alive.Run (kc : KaConfig) (wc : WatchCfg) (d : Delays) (snd : Callee) : Alive → List AlEv → Alive → Prop where
  | nil {s : Alive} : Alive.Run kc wc d snd s [] s
  | snoc {s s' s'' : Alive} {evs : List AlEv} {ev : AlEv} : Alive.Run kc wc d snd s evs s' → Alive.Step kc wc d snd s' ev s'' → Alive.Run kc wc d snd s (evs ++ [ev]) s''

end Verif.Model
