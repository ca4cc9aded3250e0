import Verif.Model.Records

/-!
# Model of `/repo/messages.go`
-/
namespace Verif.Model
open Verif

/-- `amqp.MessageProperties`, the fields vanflow uses. -/
structure MsgProps where
  to : Option String := none
  subject : Option String := none
  replyTo : Option String := none
deriving DecidableEq, Repr

/-- Element of the `[]interface{}` body of a RECORD message: a map (possibly nil) or something else. -/
inductive Elem where
  | map (m : Option Attrs)
  | other (goType : String)
deriving DecidableEq, Repr

/-- `amqp.Message.Value`. -/
inductive MsgValue where
  | nil
  | list (es : List Elem)
  | other (goType : String)
deriving DecidableEq, Repr

/-- `amqp.Message`, the parts vanflow uses. Simplification: a message read equals the message written; that is
proved of the octets in between in `Verif.Props.Wire` (C118). -/
structure Msg where
  props : Option MsgProps := none
  appProps : GMap String Any := []
  value : MsgValue := .nil
deriving DecidableEq, Repr

/-- messages.go:97-101 `MessageProps`. -/
structure Hdr where
  to : String := ""
  subject : String := ""
  replyTo : String := ""
deriving DecidableEq, Repr

/-- messages.go:43-50 `BeaconMessage`. -/
structure Beacon where
  hdr : Hdr := {}
  version : UInt32 := 0
  sourceType : String := ""
  address : String := ""
  direct : String := ""
  identity : String := ""
deriving DecidableEq, Repr

/-- messages.go:103-108 `HeartbeatMessage`. -/
structure Heartbeat where
  hdr : Hdr := {}
  identity : String := ""
  version : UInt32 := 0
  now : UInt64 := 0
deriving DecidableEq, Repr

/-- messages.go:146-148 `FlushMessage`. -/
structure Flush where
  hdr : Hdr := {}
deriving DecidableEq, Repr

/-- messages.go:174-177 `RecordMessage`. `Records []Record` holds interface values. -/
structure RecordMsg where
  hdr : Hdr := {}
  records : List (GoRec GoTime) := []

/-- The results of `Decode` (messages.go:19-20). -/
inductive Decoded where
  | beacon (m : Beacon)
  | heartbeat (m : Heartbeat)
  | flush (m : Flush)
  | record (m : RecordMsg)

/-- `if p != nil { x = *p }` starting from "" (messages.go:54-62 and alike). -/
def derefOr (p : Option String) : String := p.getD ""

/-- `if x, ok := props[k].(string); ok` (messages.go:66-77). -/
def strProp (m : GMap String Any) (k : String) : String :=
  match m.get? k with
  | some (.str s) => s
  | _ => ""

/-- `if x, ok := props[k].(uint32); ok` (messages.go:63-65). -/
def u32Prop (m : GMap String Any) (k : String) : UInt32 :=
  match m.get? k with
  | some (.u32 n) => n
  | _ => 0

/-- `if x, ok := props[k].(uint64); ok` (messages.go:122-124). -/
def u64Prop (m : GMap String Any) (k : String) : UInt64 :=
  match m.get? k with
  | some (.u64 n) => n
  | _ => 0

/-- messages.go:52-79 `DecodeBeacon`; nil `Properties` panics. -/
def decodeBeacon (msg : Msg) : Res Beacon :=
  match msg.props with
  | none => .panic "nil pointer dereference"
  | some p => .ok {
      hdr := { to := derefOr p.to, subject := derefOr p.subject, replyTo := derefOr p.replyTo }
      version := u32Prop msg.appProps "v"
      sourceType := strProp msg.appProps "sourceType"
      address := strProp msg.appProps "address"
      direct := strProp msg.appProps "direct"
      identity := strProp msg.appProps "id" }

/-- messages.go:81-95 `BeaconMessage.Encode`. -/
def Beacon.encode (m : Beacon) : Msg :=
  { props := some { to := some "mc/sfe.all", subject := some "BEACON" }
    appProps := [("v", .u32 m.version), ("sourceType", .str m.sourceType), ("address", .str m.address),
                 ("direct", .str m.direct), ("id", .str m.identity)] }

/-- messages.go:110-129 `DecodeHeartbeat`. -/
def decodeHeartbeat (msg : Msg) : Res Heartbeat :=
  match msg.props with
  | none => .panic "nil pointer dereference"
  | some p => .ok {
      hdr := { to := derefOr p.to, subject := derefOr p.subject }
      version := u32Prop msg.appProps "v"
      now := u64Prop msg.appProps "now"
      identity := strProp msg.appProps "id" }

/-- messages.go:131-144 `HeartbeatMessage.Encode`. -/
def Heartbeat.encode (m : Heartbeat) : Msg :=
  { props := some { to := some ("mc/sfe." ++ m.identity), subject := some "HEARTBEAT" }
    appProps := [("v", .u32 m.version), ("now", .u64 m.now), ("id", .str m.identity)] }

/-- messages.go:150-162 `DecodeFlush`. -/
def decodeFlush (msg : Msg) : Res Flush :=
  match msg.props with
  | none => .panic "nil pointer dereference"
  | some p => .ok { hdr := { to := derefOr p.to, subject := derefOr p.subject, replyTo := derefOr p.replyTo } }

/-- messages.go:164-172 `FlushMessage.Encode`. -/
def Flush.encode (m : Flush) : Msg :=
  { props := some { to := some m.hdr.to, replyTo := some m.hdr.replyTo, subject := some "FLUSH" } }

/-- `record.(Record)` (messages.go:225): does the dynamic type implement `vanflow.Record` (base.go:20-23)? -/
def isRecord : GoRec GoTime → Bool
  | .nil => false
  | .value r | .pointer r => recordKinds.contains r.tname
  | .nilPointer n => recordKinds.contains n

/-- messages.go:208-232 `decodeRecords`, the loop. Simplified: the Go types that `%T` puts at the end of the error texts
(messages.go:214, 219, 227) are left out, here and in `decodeRecords`. -/
def decodeElems (reg : Registry) : List Elem → Res (List (GoRec GoTime))
  | [] => .ok []
  | .other _ :: _ => .err "unexpected type in message Value slice"
  | .map m :: es =>
    (decode vanEnv reg m).bind fun r =>
      if isRecord r then (decodeElems reg es).map fun rs => r :: rs
      else .err "decoded type does not implement Record"

/-- messages.go:208-232 `decodeRecords`. -/
def decodeRecords (reg : Registry) (msg : Msg) : Res (List (GoRec GoTime)) :=
  match msg.value with
  | .list es => decodeElems reg es
  | _ => .err "unexpected type for message Value"

/-- messages.go:179-188 `DecodeRecord`. The partially filled message returned beside an error is not modelled (callers
discard it, eventsource/client.go). -/
def decodeRecord (reg : Registry) (msg : Msg) : Res RecordMsg :=
  match msg.props with
  | none => .panic "nil pointer dereference"
  | some p => (decodeRecords reg msg).map fun rs =>
      { hdr := { to := derefOr p.to, subject := derefOr p.subject }, records := rs }

/-- messages.go:191-198: the loop of `RecordMessage.Encode`. -/
def encodeRecords (reg : Registry) : List (GoRec GoTime) → Res (List Elem)
  | [] => .ok []
  | r :: rs => (encode vanEnv reg r).bind fun a => (encodeRecords reg rs).map fun es => .map (some a) :: es

/-- messages.go:190-206 `RecordMessage.Encode`. -/
def RecordMsg.encode (reg : Registry) (m : RecordMsg) : Res Msg :=
  (encodeRecords reg m.records).map fun es =>
    { props := some { to := some m.hdr.to, subject := some "RECORD" }, value := .list es }

/-- messages.go:19-41 `Decode`; `none` is a nil message. -/
def decodeMsg (reg : Registry) : Option Msg → Res Decoded
  | none => .err "cannot decode message with nil properties"
  | some msg =>
    match msg.props with
    | none => .err "cannot decode message with nil properties"
    | some p =>
      match p.subject with
      | none => .err "cannot decode message without subject"
      | some s =>
        if s = "BEACON" then (decodeBeacon msg).map .beacon
        else if s = "HEARTBEAT" then (decodeHeartbeat msg).map .heartbeat
        else if s = "FLUSH" then (decodeFlush msg).map .flush
        else if s = "RECORD" then (decodeRecord reg msg).map .record
        else .err "cannot decode message with subject"

end Verif.Model
