import Verif.Model.Store
import Verif.Model.Messages

/-!
# Model of the record side of `/repo/eventsource/manager.go`

`diffRecord` is a function.  The goroutines `serve`, `sendRecords` and `listenFlushes`, the callers of `PublishUpdate` and the writers of
the stores are one labelled transition system: a step is one channel operation, one store call, or the choice of a ready `select` case.
Every interleaving is possible; timers may fire at any moment; a ready `select` picks any of its ready cases, as in Go.
Keepalives are in `Verif/Model/Keepalive.lean`.
-/
namespace Verif.Model
open Verif

/-- eventsource/manager.go:45-48 `RecordUpdate`; a nil `Prev` is `GoRec.nil`. -/
structure RecordUpdate where
  prev : GoRec GoTime := .nil
  curr : GoRec GoTime

/-- eventsource/manager.go:128-131: `kCodePoint, ok := k.(uint32); ok && kCodePoint < 2`. -/
def isIdentifying : Any → Bool
  | .u32 n => decide (n < 2)
  | _ => false

/-- eventsource/manager.go:117-132: the loop over the attributes of the current record; `delta` and `isDiff` so far.
Simplification: `next[k] != pv` is taken to be inequality of values; Go would panic on uncomparable dynamic types, which no record of this
package encodes to. -/
def diffLoop (prev : Attrs) : Attrs → Attrs → Bool → Attrs × Bool
  | [], delta, isDiff => (delta, isDiff)
  | (k, v) :: rest, delta, isDiff =>
    match prev.get? k with
    | none => diffLoop prev rest (delta.set k v) true
    | some pv =>
      if v ≠ pv then diffLoop prev rest (delta.set k v) true
      else if isIdentifying k then diffLoop prev rest (delta.set k v) isDiff
      else diffLoop prev rest delta isDiff

/-- eventsource/manager.go:101-142 `diffRecord`; `ok none` is `(nil, false)`.  Line 141 is a type assertion that can panic. -/
def diffRecord (d : RecordUpdate) : Res (Option (GoRec GoTime)) :=
  match d.prev with
  | .nil => .ok (some d.curr)
  | _ =>
    match encode vanEnv vanRegistry d.prev with
    | .panic m => .panic m
    | .err _ => .ok none
    | .ok prev =>
      match encode vanEnv vanRegistry d.curr with
      | .panic m => .panic m
      | .err _ => .ok none
      | .ok next =>
        match diffLoop prev next [] false with
        | (_, false) => .ok none
        | (delta, true) =>
          match decode vanEnv vanRegistry (some delta) with
          | .panic m => .panic m
          | .err _ => .ok none
          | .ok r => if isRecord r then .ok (some r) else .panic "interface conversion: not a vanflow.Record"

/-- eventsource/manager.go:161-169: the records of a batch. -/
def diffBatch : List RecordUpdate → Res (List (GoRec GoTime))
  | [] => .ok []
  | u :: us =>
    (diffRecord u).bind fun d => (diffBatch us).map fun rs =>
      match d with
      | some r => r :: rs
      | none => rs

/-- eventsource/manager.go:16-43 `ManagerConfig`, the parts used by the record side.  Durations are integers. -/
structure MgrConfig where
  flushDelay : Int := 0
  flushBatchSize : Int := 0
  updateBufferTime : Int := 0
  updateBatchSize : Int := 0
  /-- the number of stores -/
  numStores : Nat := 0

/-- eventsource/manager.go:63 -/
def flushQueueCap : Nat := 8
/-- eventsource/manager.go:64 -/
def changeQueueCap : Nat := 256
/-- eventsource/manager.go:65 -/
def sendQueueCap : Nat := 256
/-- eventsource/manager.go:183 -/
def drainMax : Nat := 2048

/-- Where the `serve` goroutine is (eventsource/manager.go:144-226). -/
inductive ServePC where
  /-- the select at line 146 -/
  | idle
  /-- in nextN at line 153, with the updates so far (the first one, line 149, included) -/
  | buffering (buf : List RecordUpdate)
  /-- a batch complete, at line 161 -/
  | batch (buf : List RecordUpdate)
  /-- the select at line 173 -/
  | sendUpdate (msg : List (GoRec GoTime))
  /-- in nextN at line 183, with the number of flushes drained so far -/
  | draining (n : Nat)
  /-- line 189: about to service a flush -/
  | flushStart
  /-- the loop at line 195: stores left, continue token -/
  | flushing (queue : List Nat) (cont : String)
  /-- the select at line 218 -/
  | sendFlush (queue : List Nat) (cont : String) (msg : List (GoRec GoTime))
  /-- returned -/
  | stopped
  /-- panicked.  Simplification: the sender and the callers of the manager may still take steps, as if the process ended a little later. -/
  | crashed

/-- Where the `sendRecords` goroutine is (eventsource/manager.go:80-99). -/
inductive SenderPC where
  /-- the select at line 84 -/
  | waiting
  /-- it has received a message (line 87) and is encoding or sending it -/
  | busy
  /-- returned -/
  | done
deriving DecidableEq

/-- The manager, its stores (by number), and whether its context is cancelled. -/
structure Mgr where
  stores : Stores (GoRec GoTime)
  changeQueue : List RecordUpdate := []
  flushQueue : Nat := 0
  /-- the messages `sendRecords` is not done with: the one it has received, if it is busy, and those in the channel -/
  sendQueue : List (List (GoRec GoTime)) := []
  pc : ServePC := .idle
  snd : SenderPC := .waiting
  cancelled : Bool := false

/-- manager.go:65: the channel `sendQueue` has room. -/
def Mgr.SendRoom (s : Mgr) : Prop := s.sendQueue.length < sendQueueCap + (if s.snd = .busy then 1 else 0)

instance (s : Mgr) : Decidable s.SendRoom := inferInstanceAs (Decidable (_ < _))

/-- What can be observed of a step. -/
inductive MgrEv where
  /-- PublishUpdate put an update in the queue -/
  | publish (u : RecordUpdate)
  /-- a flush message was received -/
  | flushReceived
  /-- receiving a flush message failed -/
  | receiveError
  /-- a store was called by its owner -/
  | storeOp (i : Nat) (op : Op (GoRec GoTime))
  /-- the manager begins to service a flush ("servicing flush") -/
  | flushBegin
  /-- the manager has gone through all stores -/
  | flushEnd
  /-- an update message was queued for sending -/
  | queueUpdate (msg : List (GoRec GoTime))
  /-- a flush message was queued for sending -/
  | queueFlush (msg : List (GoRec GoTime))
  /-- a message was sent -/
  | sent (records : List (GoRec GoTime)) (msg : Msg)
  /-- a message could not be encoded and was skipped -/
  | skipped (records : List (GoRec GoTime))
  /-- a message could not be sent and was given up -/
  | sendFailed (records : List (GoRec GoTime))
  /-- encoding a message panicked -/
  | sendPanicked (records : List (GoRec GoTime))
  /-- the context was cancelled -/
  | cancel
  /-- nothing observable -/
  | tau

/-- The steps. -/
inductive Mgr.Step (cfg : MgrConfig) : Mgr → MgrEv → Mgr → Prop where
  /-- manager.go:69-71 `PublishUpdate`: blocks while the queue is full. -/
  | publish {s : Mgr} (u : RecordUpdate) : s.changeQueue.length < changeQueueCap →
      Mgr.Step cfg s (.publish u) { s with changeQueue := s.changeQueue ++ [u] }
  /-- The owner of a store calls it. -/
  | storeOp {s : Mgr} (i : Nat) (op : Op (GoRec GoTime)) :
      Mgr.Step cfg s (.storeOp i op) { s with stores := fun j => if j = i then ((s.stores i).step vanOps op).1 else s.stores j }
  /-- manager.go:312-325 `listenFlushes`: a message arrives; it is dropped if the queue is full. -/
  | flushReceived {s : Mgr} :
      Mgr.Step cfg s .flushReceived { s with flushQueue := if s.flushQueue < flushQueueCap then s.flushQueue + 1 else s.flushQueue }
  /-- manager.go:314-324: receiving fails for another reason than cancellation; a flush is queued all the same.  Not modelled: the call
  `Accept(ctx, nil)` (manager.go:320) reaching go-amqp, which needs a receiver created on a context that has ended. -/
  | receiveError {s : Mgr} :
      Mgr.Step cfg s .receiveError { s with flushQueue := if s.flushQueue < flushQueueCap then s.flushQueue + 1 else s.flushQueue }
  /-- The context is cancelled. -/
  | cancel {s : Mgr} : Mgr.Step cfg s .cancel { s with cancelled := true }
  /-- manager.go:147-148 -/
  | stop {s : Mgr} : s.pc = .idle → s.cancelled = true → Mgr.Step cfg s .tau { s with pc := .stopped }
  /-- manager.go:149-160: an update is taken; with buffering configured nextN is entered (its `n < 1` case, line 345, cannot happen since
  UpdateBatchSize > 1). -/
  | take {s : Mgr} {u : RecordUpdate} {rest : List RecordUpdate} : s.pc = .idle → s.changeQueue = u :: rest →
      Mgr.Step cfg s .tau
        { s with changeQueue := rest
                 pc := if cfg.updateBufferTime > 0 ∧ cfg.updateBatchSize > 1 then .buffering [u] else .batch [u] }
  /-- manager.go:352-356: nextN receives; at `UpdateBatchSize-1` further updates it returns. -/
  | buffer {s : Mgr} {buf : List RecordUpdate} {u : RecordUpdate} {rest : List RecordUpdate} : s.pc = .buffering buf →
      s.changeQueue = u :: rest →
      Mgr.Step cfg s .tau
        { s with changeQueue := rest
                 pc := if (buf.length : Int) = cfg.updateBatchSize - 1 then
                     (if s.cancelled then .stopped else .batch (buf ++ [u]))
                   else .buffering (buf ++ [u]) }
  /-- manager.go:350-351: the buffer context ends; lines 155-157: if the manager's own context has ended, return. -/
  | bufferTimeout {s : Mgr} {buf : List RecordUpdate} : s.pc = .buffering buf →
      Mgr.Step cfg s .tau { s with pc := if s.cancelled then .stopped else .batch buf }
  /-- manager.go:161-172: the diffs of the batch; an empty message is not sent. -/
  | diff {s : Mgr} {buf : List RecordUpdate} {msg : List (GoRec GoTime)} : s.pc = .batch buf → diffBatch buf = .ok msg →
      Mgr.Step cfg s .tau { s with pc := if msg.length = 0 then .idle else .sendUpdate msg }
  /-- manager.go:164: a diff panics. -/
  | diffPanic {s : Mgr} {buf : List RecordUpdate} {m : String} : s.pc = .batch buf → diffBatch buf = .panic m →
      Mgr.Step cfg s .tau { s with pc := .crashed }
  /-- manager.go:176 -/
  | queueUpdate {s : Mgr} {msg : List (GoRec GoTime)} : s.pc = .sendUpdate msg → s.SendRoom →
      Mgr.Step cfg s (.queueUpdate msg) { s with sendQueue := s.sendQueue ++ [msg], pc := .idle }
  /-- manager.go:174-175 -/
  | stopUpdate {s : Mgr} {msg : List (GoRec GoTime)} : s.pc = .sendUpdate msg → s.cancelled = true →
      Mgr.Step cfg s .tau { s with pc := .stopped }
  /-- manager.go:179-183: a flush request is taken. -/
  | takeFlush {s : Mgr} : s.pc = .idle → 0 < s.flushQueue →
      Mgr.Step cfg s .tau { s with flushQueue := s.flushQueue - 1, pc := if cfg.flushDelay > 0 then .draining 0 else .flushStart }
  /-- manager.go:352-356: a further request is drained. -/
  | drain {s : Mgr} {n : Nat} : s.pc = .draining n → 0 < s.flushQueue →
      Mgr.Step cfg s .tau
        { s with flushQueue := s.flushQueue - 1
                 pc := if n + 1 = drainMax then (if s.cancelled then .stopped else .flushStart) else .draining (n + 1) }
  /-- manager.go:350-351: the drain context ends; lines 185-187. -/
  | drainTimeout {s : Mgr} {n : Nat} : s.pc = .draining n →
      Mgr.Step cfg s .tau { s with pc := if s.cancelled then .stopped else .flushStart }
  /-- manager.go:189-194 -/
  | flushBegin {s : Mgr} : s.pc = .flushStart →
      Mgr.Step cfg s .flushBegin { s with pc := .flushing (List.range cfg.numStores) "" }
  /-- manager.go:195: no store is left. -/
  | flushEnd {s : Mgr} {cont : String} : s.pc = .flushing [] cont → Mgr.Step cfg s .flushEnd { s with pc := .idle }
  /-- manager.go:196-217: a page is listed; an empty one is skipped. -/
  | page {s : Mgr} {i : Nat} {queue : List Nat} {cont : String} {res : SetRes (GoRec GoTime)} (nonce : Int) :
      s.pc = .flushing (i :: queue) cont →
      (s.stores i).list (some { limit := cfg.flushBatchSize, cont := cont }) nonce = .ok res →
      Mgr.Step cfg s .tau
        { s with pc :=
            let queue' := if res.cont = "" then queue else i :: queue
            if res.entries.length = 0 then .flushing queue' res.cont
            else .sendFlush queue' res.cont (res.entries.map Entry.record) }
  /-- manager.go:198-204: listing fails; unless the error is the context's (the stores of this package never return it), try again. -/
  | pageError {s : Mgr} {i : Nat} {queue : List Nat} {cont e : String} (nonce : Int) : s.pc = .flushing (i :: queue) cont →
      (s.stores i).list (some { limit := cfg.flushBatchSize, cont := cont }) nonce = .err e → Mgr.Step cfg s .tau s
  /-- manager.go:197: listing panics. -/
  | pagePanic {s : Mgr} {i : Nat} {queue : List Nat} {cont m : String} (nonce : Int) : s.pc = .flushing (i :: queue) cont →
      (s.stores i).list (some { limit := cfg.flushBatchSize, cont := cont }) nonce = .panic m →
      Mgr.Step cfg s .tau { s with pc := .crashed }
  /-- manager.go:221 -/
  | queueFlush {s : Mgr} {queue : List Nat} {cont : String} {msg : List (GoRec GoTime)} : s.pc = .sendFlush queue cont msg →
      s.SendRoom →
      Mgr.Step cfg s (.queueFlush msg) { s with sendQueue := s.sendQueue ++ [msg], pc := .flushing queue cont }
  /-- manager.go:219-220 -/
  | stopFlush {s : Mgr} {queue : List Nat} {cont : String} {msg : List (GoRec GoTime)} : s.pc = .sendFlush queue cont msg →
      s.cancelled = true → Mgr.Step cfg s .tau { s with pc := .stopped }
  /-- manager.go:87: `sendRecords` receives a message. -/
  | takeMsg {s : Mgr} : s.snd = .waiting → s.sendQueue ≠ [] → Mgr.Step cfg s .tau { s with snd := .busy }
  /-- manager.go:85-86: `sendRecords` returns. -/
  | sndStop {s : Mgr} : s.snd = .waiting → s.cancelled = true → Mgr.Step cfg s .tau { s with snd := .done }
  /-- manager.go:88-93: the message is encoded (with empty To) and sent; this is the end of `Send`. -/
  | send {s : Mgr} {records : List (GoRec GoTime)} {rest : List (List (GoRec GoTime))} {msg : Msg} : s.sendQueue = records :: rest →
      RecordMsg.encode vanRegistry { records := records } = .ok msg → s.snd = .busy →
      Mgr.Step cfg s (.sent records msg) { s with sendQueue := rest, snd := .waiting }
  /-- manager.go:89-92: encoding fails. -/
  | skip {s : Mgr} {records : List (GoRec GoTime)} {rest : List (List (GoRec GoTime))} {e : String} : s.sendQueue = records :: rest →
      RecordMsg.encode vanRegistry { records := records } = .err e → s.snd = .busy →
      Mgr.Step cfg s (.skipped records) { s with sendQueue := rest, snd := .waiting }
  /-- manager.go:93-96: sending fails. -/
  | sendFail {s : Mgr} {records : List (GoRec GoTime)} {rest : List (List (GoRec GoTime))} {msg : Msg} : s.sendQueue = records :: rest →
      RecordMsg.encode vanRegistry { records := records } = .ok msg → s.snd = .busy →
      Mgr.Step cfg s (.sendFailed records) { s with sendQueue := rest, snd := .waiting }
  /-- manager.go:88: encoding panics. -/
  | sendPanic {s : Mgr} {records : List (GoRec GoTime)} {rest : List (List (GoRec GoTime))} {m : String} : s.sendQueue = records :: rest →
      RecordMsg.encode vanRegistry { records := records } = .panic m → s.snd = .busy →
      Mgr.Step cfg s (.sendPanicked records) { s with sendQueue := rest, pc := .crashed, snd := .waiting }

/-- A run: the events of the steps, in order. -/
inductive Mgr.Run (cfg : MgrConfig) : Mgr → List MgrEv → Mgr → Prop where
  | nil {s : Mgr} : Mgr.Run cfg s [] s
  | snoc {s s' s'' : Mgr} {evs : List MgrEv} {ev : MgrEv} : Mgr.Run cfg s evs s' → Mgr.Step cfg s' ev s'' → Mgr.Run cfg s (evs ++ [ev]) s''

end Verif.Model
