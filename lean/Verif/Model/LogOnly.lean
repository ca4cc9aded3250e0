import Verif.Model.Serve
import Verif.Model.Messages

/-!
# The log mode of `vanflow-tool` (`/repo/cmd/vanflow-tool/log.go`): from the handlers to standard output

The clients' listeners (numbered threads) call the handlers; a handler puts one `Message` into a channel with room for 64; the main goroutine takes them out and
writes them as JSON.  `encoding/json` is reduced to whether it can encode the value (`jsonRecordOk`, `Verif/Model/Serve.lean`).  Writing to standard output
does not fail.  The text of the lines is in `Verif/Model/LogText.lean`.
-/
namespace Verif.Model
open Verif

/-- log.go:124-134 `Message`, the fields that are ever set; `data` is nil or the list of `RecordData` (log.go:135-138). -/
structure Line where
  to : String
  subject : String
  v : String := ""
  now : String := ""
  id : String := ""
  data : Option (List (String × GoRec GoTime)) := none

/-- `fmt.Sprintf("%T", r)` (log.go:35). -/
def goTypeName : GoRec GoTime → String
  | .nil => "<nil>"
  | .value r => "vanflow." ++ r.tname
  | .pointer r => "*vanflow." ++ r.tname
  | .nilPointer n => "*vanflow." ++ n

/-- log.go:31-38: the loop. -/
def recordData : List (GoRec GoTime) → List (String × GoRec GoTime)
  | [] => []
  | r :: rs => (goTypeName r, r) :: recordData rs

/-- log.go:22-40: the two handlers; the client calls no handler for other messages. -/
def lineOf : Decoded → Option Line
  | .heartbeat m => some { subject := m.hdr.subject, to := m.hdr.to, v := toString m.version, now := toString m.now, id := m.identity }
  | .record m => some { subject := m.hdr.subject, to := m.hdr.to, data := some (recordData m.records) }
  | _ => none

/-- `enc.Encode(out)` succeeds (log.go:117). -/
def jsonLineOk (l : Line) : Bool :=
  match l.data with
  | none => true
  | some rs => rs.all fun r => jsonRecordOk r.2

structure Lg where
  /-- what each thread is about to put into the channel -/
  pending : Nat → Option Line := fun _ => none
  /-- `outputstream` (log.go:18) -/
  buf : List Line := []
  /-- the main goroutine is in enc.Encode with this value -/
  writing : Option Line := none
  stopped : Bool := false
  ended : Bool := false

inductive LgEv where
  /-- thread `t` calls a handler with a decoded message -/
  | handled (t : Nat) (d : Decoded)
  /-- the handler of thread `t` has put its value into the channel, and returns -/
  | put (t : Nat) (l : Line)
  | tau
  | wrote (l : Line)
  /-- log.go:118: the encoder fails; the value goes to the log of the tool -/
  | dropped (l : Line)
  | returned

def Lg.with (s : Lg) (t : Nat) (o : Option Line) : Lg := { s with pending := fun u => if u = t then o else s.pending u }

inductive Lg.Step : Lg → LgEv → Lg → Prop where
  /-- log.go:22, 31 -/
  | handle {s : Lg} {t : Nat} {d : Decoded} {l : Line} : s.pending t = none → lineOf d = some l → Lg.Step s (.handled t d) (s.with t (some l))
  /-- log.go:23, 39: blocks while the channel is full -/
  | put {s : Lg} {t : Nat} {l : Line} : s.pending t = some l → s.buf.length < 64 →
      Lg.Step s (.put t l) { s.with t none with buf := s.buf ++ [l] }
  /-- log.go:116 -/
  | take {s : Lg} {l : Line} {ls : List Line} : s.ended = false → s.writing = none → s.buf = l :: ls →
      Lg.Step s .tau { s with buf := ls, writing := some l }
  /-- log.go:117 -/
  | write {s : Lg} {l : Line} : s.writing = some l → jsonLineOk l = true → Lg.Step s (.wrote l) { s with writing := none }
  /-- log.go:118 -/
  | drop {s : Lg} {l : Line} : s.writing = some l → jsonLineOk l = false → Lg.Step s (.dropped l) { s with writing := none }
  /-- the context ends -/
  | stop {s : Lg} : Lg.Step s .tau { s with stopped := true }
  /-- log.go:114-115 -/
  | finish {s : Lg} : s.stopped = true → s.writing = none → s.ended = false → Lg.Step s .returned { s with ended := true }

inductive Lg.Run : Lg → List LgEv → Lg → Prop where
  | nil {s : Lg} : Lg.Run s [] s
  | snoc {s s' s'' : Lg} {evs : List LgEv} {ev : LgEv} : Lg.Run s evs s' → Lg.Step s' ev s'' → Lg.Run s (evs ++ [ev]) s''

end Verif.Model
