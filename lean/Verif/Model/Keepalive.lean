import Verif.Model.Ctx
import Verif.Model.Messages

/-!
# Model of `Manager.sendKeepalives` and `sendWithTimeout` (`/repo/eventsource/manager.go:228-307, 328-340`)

The goroutine, its two tickers, the clock, the context and the sender form a transition system.  Time is an integer number of Unix
nanoseconds; it advances by any amount at any moment.  Timers fire at or after their time, never before.  The two senders are given as
`Callee`s, so theorems can speak about every sender or about particular ones.
-/
namespace Verif.Model
open Verif

/-- eventsource/source.go:8-15 `Info`.  `LastSeen` is an integer number of nanoseconds. -/
structure Info where
  id : String := ""
  version : Int := 0
  type : String := ""
  address : String := ""
  direct : String := ""
  lastSeen : Int := 0
deriving DecidableEq, Repr

/-- Go's conversion `uint32(v)` of an int. -/
def toUint32 (v : Int) : UInt32 := UInt32.ofNat (v % 4294967296).toNat

/-- Go's `uint64(t.UnixMicro())` of a time in Unix nanoseconds. -/
def unixMicroU64 (t : Int) : UInt64 := UInt64.ofNat (t / 1000 % 18446744073709551616).toNat

/-- manager.go:16-28, the fields used here. -/
structure KaConfig where
  source : Info
  heartbeatInterval : Int := 0
  beaconInterval : Int := 0
  useAlternateHeartbeatAddress : Bool := false

/-- manager.go:229-232 -/
def KaConfig.beaconEvery (c : KaConfig) : Int := if c.beaconInterval ≤ 0 then 10000000000 else c.beaconInterval
/-- manager.go:233-236 -/
def KaConfig.heartbeatEvery (c : KaConfig) : Int := if c.heartbeatInterval ≤ 0 then 2000000000 else c.heartbeatInterval
/-- manager.go:270-273 -/
def KaConfig.deliveryTimeout (c : KaConfig) : Int := if c.heartbeatEvery > c.beaconEvery then c.beaconEvery else c.heartbeatEvery
/-- eventsource/discovery.go:15 -/
def beaconAddress : String := "mc/sfe.all"
/-- manager.go:251-254 -/
def KaConfig.heartbeatAddr (c : KaConfig) : String :=
  if c.useAlternateHeartbeatAddress then c.source.address ++ ".heartbeats" else c.source.address
/-- manager.go:238-245 -/
def KaConfig.beacon (c : KaConfig) : Beacon :=
  { hdr := ⟨beaconAddress, "", ""⟩
    version := toUint32 c.source.version, sourceType := c.source.type, address := c.source.address, direct := c.source.direct,
    identity := c.source.id }
/-- manager.go:246-249, 289 -/
def KaConfig.heartbeat (c : KaConfig) (now : Int) : Heartbeat :=
  { version := toUint32 c.source.version, identity := c.source.id, now := unixMicroU64 now }

/-- A `time.Ticker`: when it fires next, and whether a tick waits in its channel (of capacity 1). -/
structure Ticker where
  next : Int
  pending : Bool := false

/-- The three places that call sendWithTimeout. -/
inductive KaKind where
  /-- manager.go:263 -/
  | initial
  /-- manager.go:285 -/
  | beacon
  /-- manager.go:296 -/
  | heartbeat
deriving DecidableEq, Repr

/-- What sendWithTimeout returns. -/
inductive KaRes where
  | ok
  | failed (e : GoErr)
deriving DecidableEq, Repr

/-- `errors.Is(err, errSendTimeoutExceeded)` (line 297) -/
def KaRes.isTimeout : KaRes → Bool
  | .ok => false
  | .failed e => e.is .sendTimeout

/-- manager.go:333-339: the result of sendWithTimeout from the result of `sender.Send`, `requestCtx.Err()` and `ctx.Err()`. -/
def sendResult (sent reqErr ctxErr : Option GoErr) : KaRes :=
  match sent with
  | none => .ok
  | some e => if errorsIs sent reqErr && ctxErr.isNone then .failed .sendTimeout else .failed e

inductive KaPC where
  /-- line 263, about to call -/
  | init
  /-- line 333, inside `sender.Send(ctx, msg)`, called at `began`; requestCtx ends at `until`; its `Err()` now -/
  | sending (k : KaKind) (began : Int) (until_ : Int) (reqErr : Option GoErr)
  /-- the select at line 280 -/
  | loop
  /-- returned -/
  | stopped

structure Ka where
  now : Int
  /-- `ctx.Err()` -/
  ctx : Option GoErr := none
  beaconTick : Ticker := ⟨0, false⟩
  heartbeatTick : Ticker := ⟨0, false⟩
  timeouts : Nat := 0
  firstSent : Bool := false
  pc : KaPC := .init

inductive KaEv where
  /-- the clock moves -/
  | time
  /-- the context ends -/
  | cancel (e : GoErr)
  /-- a ticker fires -/
  | tick
  /-- requestCtx ends by its deadline -/
  | expire
  /-- sendWithTimeout is called with a message for an address -/
  | begin_ (k : KaKind) (addr : String) (msg : Msg)
  /-- sendWithTimeout returns -/
  | end_ (k : KaKind) (r : KaRes)
  /-- the goroutine returns -/
  | stop
deriving DecidableEq

/-- Go runtime, time.go: a periodic timer that fires at `now ≥ next` is set to the first later multiple of the period. -/
def Ticker.fire (t : Ticker) (period now : Int) : Ticker := ⟨t.next + period * (1 + (now - t.next) / period), true⟩

/-- manager.go:296-304: heartbeatTimeouts and firstHeartbeatSent after a heartbeat send. -/
def Ka.heartbeatDone (s : Ka) (r : KaRes) : Ka :=
  if r.isTimeout = true ∧ s.timeouts < 3 ∧ s.firstSent = false then { s with timeouts := s.timeouts + 1, pc := .loop }
  else { s with firstSent := true, pc := .loop }

/-- The steps. -/
inductive Ka.Step (cfg : KaConfig) (snd : Callee) : Ka → KaEv → Ka → Prop where
  | time {s : Ka} (t : Int) : s.now ≤ t → Ka.Step cfg snd s .time { s with now := t }
  /-- The context ends; a derived context that is still live ends with it. -/
  | cancel {s : Ka} (e : GoErr) : e.IsCtx → s.ctx = none →
      Ka.Step cfg snd s (.cancel e)
        { s with ctx := some e
                 pc := match s.pc with
                   | .sending k b u none => .sending k b u (some e)
                   | pc => pc }
  /-- requestCtx ends by its deadline (line 331). -/
  | expire {s : Ka} {k : KaKind} {b u : Int} : s.pc = .sending k b u none → u ≤ s.now →
      Ka.Step cfg snd s .expire { s with pc := .sending k b u (some .deadline) }
  /-- line 263 -/
  | beginInit {s : Ka} : s.pc = .init →
      Ka.Step cfg snd s (.begin_ .initial beaconAddress cfg.beacon.encode)
        { s with pc := .sending .initial s.now (s.now + cfg.beaconEvery) s.ctx }
  /-- lines 263-266: the send failed, try again -/
  | retryInit {s : Ka} {b u : Int} {reqErr : Option GoErr} {e : GoErr} : s.pc = .sending .initial b u reqErr → snd s.ctx (some e) →
      Ka.Step cfg snd s (.end_ .initial (sendResult (some e) reqErr s.ctx)) { s with pc := .init }
  /-- lines 267-278: the first beacon is out; the tickers start -/
  | doneInit {s : Ka} {b u : Int} {reqErr : Option GoErr} : s.pc = .sending .initial b u reqErr → snd s.ctx none →
      Ka.Step cfg snd s (.end_ .initial .ok)
        { s with pc := .loop, beaconTick := ⟨s.now + cfg.beaconEvery, false⟩, heartbeatTick := ⟨s.now + cfg.heartbeatEvery, false⟩ }
  /-- the beacon ticker fires; a tick that is still waiting is not doubled.  (The ticker runs once created, line 275.) -/
  | tickBeacon {s : Ka} : s.beaconTick.next ≤ s.now → s.pc ≠ .init → (∀ b u r, s.pc ≠ .sending .initial b u r) →
      Ka.Step cfg snd s .tick { s with beaconTick := s.beaconTick.fire cfg.beaconEvery s.now }
  | tickHeartbeat {s : Ka} : s.heartbeatTick.next ≤ s.now → s.pc ≠ .init → (∀ b u r, s.pc ≠ .sending .initial b u r) →
      Ka.Step cfg snd s .tick { s with heartbeatTick := s.heartbeatTick.fire cfg.heartbeatEvery s.now }
  /-- lines 281-282 -/
  | stop {s : Ka} : s.pc = .loop → s.ctx.isSome = true → Ka.Step cfg snd s .stop { s with pc := .stopped }
  /-- lines 283-285 -/
  | beginBeacon {s : Ka} : s.pc = .loop → s.beaconTick.pending = true →
      Ka.Step cfg snd s (.begin_ .beacon beaconAddress cfg.beacon.encode)
        { s with pc := .sending .beacon s.now (s.now + cfg.deliveryTimeout) s.ctx, beaconTick := { s.beaconTick with pending := false } }
  /-- lines 285-287: an error is only logged -/
  | endBeacon {s : Ka} {b u : Int} {reqErr r : Option GoErr} : s.pc = .sending .beacon b u reqErr → snd s.ctx r →
      Ka.Step cfg snd s (.end_ .beacon (sendResult r reqErr s.ctx)) { s with pc := .loop }
  /-- lines 288-296 -/
  | beginHeartbeat {s : Ka} : s.pc = .loop → s.heartbeatTick.pending = true →
      Ka.Step cfg snd s (.begin_ .heartbeat cfg.heartbeatAddr (cfg.heartbeat s.now).encode)
        { s with pc := .sending .heartbeat s.now (s.now + cfg.deliveryTimeout) s.ctx
                 heartbeatTick := { s.heartbeatTick with pending := false } }
  /-- lines 296-304 -/
  | endHeartbeat {s : Ka} {b u : Int} {reqErr r : Option GoErr} : s.pc = .sending .heartbeat b u reqErr → snd s.ctx r →
      Ka.Step cfg snd s (.end_ .heartbeat (sendResult r reqErr s.ctx)) (s.heartbeatDone (sendResult r reqErr s.ctx))

/-- Finite executions. -/
inductive Ka.Run (cfg : KaConfig) (snd : Callee) : Ka → List KaEv → Ka → Prop where
  | nil {s : Ka} : Ka.Run cfg snd s [] s
  | snoc {s s' s'' : Ka} {evs : List KaEv} {ev : KaEv} : Ka.Run cfg snd s evs s' → Ka.Step cfg snd s' ev s'' →
      Ka.Run cfg snd s (evs ++ [ev]) s''

end Verif.Model
