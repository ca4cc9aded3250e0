import Verif.Model.Messages
import Verif.Basic.Amqp

/-!
# Messages on the wire

What `amqp.Message` becomes between `Sender.Send` (session/container.go:432) and `Receiver.Receive` (session/container.go:391):
the octets the library writes for the types vanflow puts into a message, and how it reads octets back into Go values. The library
(github.com/Azure/go-amqp v1.0.4, go.mod:6) is not part of /repo; the functions here are written down from its behaviour, with the
forms of each value as in AMQP 1.0, part 1, section 1.6. Splitting a message over several frames is left out.
-/
namespace Verif.Model
open Verif

/-! ## Reading -/

/-- The next `k` octets. -/
def takeN (k : Nat) (bs : List UInt8) : Option (List UInt8 × List UInt8) :=
  if bs.length < k then none else some (bs.take k, bs.drop k)

/-- The first octets of a value: a whole scalar, or the element count of a list or map. -/
inductive Head where
  | val (v : WVal) (rest : List UInt8)
  | list (count : Nat) (rest : List UInt8)
  | map (count : Nat) (rest : List UInt8)

/-- A scalar of `k` octets. -/
def fixedN (k : Nat) (mk : Nat → WVal) (bs : List UInt8) : Option Head :=
  (takeN k bs).map fun p => .val (mk (beNat p.1)) p.2

/-- A value of as many octets as its length field of `w` octets says. -/
def octetsN (w : Nat) (mk : List UInt8 → Option WVal) (bs : List UInt8) : Option Head :=
  (takeN w bs).bind fun p => (takeN (beNat p.1) p.2).bind fun q => (mk q.1).map fun v => .val v q.2

/-- Octets as a string; the library refuses what is not UTF-8. -/
def readUtf8 (mk : String → WVal) (bs : List UInt8) : Option WVal :=
  (String.fromUTF8? ⟨bs.toArray⟩).map mk

/-- Size and count of a list or map, fields of `w` octets: the size must not exceed what is there, and is not used otherwise. -/
def compound (w : Nat) (mk : Nat → List UInt8 → Head) (bs : List UInt8) : Option Head :=
  (takeN w bs).bind fun p =>
    if beNat p.1 > p.2.length then none
    else (takeN w p.2).bind fun q => if beNat q.1 > q.2.length then none else some (mk (beNat q.1) q.2)

/-- The type octet and what belongs to it. Types vanflow has no use for are refused here (the library reads them). -/
def readHead : List UInt8 → Option Head
  | [] => none
  | t :: r =>
    if t = 0x40 then some (.val .null r)
    else if t = 0x41 then some (.val (.bool true) r)
    else if t = 0x42 then some (.val (.bool false) r)
    else if t = 0x56 then fixedN 1 (fun n => .bool (n != 0)) r
    else if t = 0x50 then fixedN 1 (fun n => .ubyte (UInt8.ofNat n)) r
    else if t = 0x43 then some (.val (.uint 0) r)
    else if t = 0x52 then fixedN 1 (fun n => .uint (UInt32.ofNat n)) r
    else if t = 0x70 then fixedN 4 (fun n => .uint (UInt32.ofNat n)) r
    else if t = 0x44 then some (.val (.ulong 0) r)
    else if t = 0x53 then fixedN 1 (fun n => .ulong (UInt64.ofNat n)) r
    else if t = 0x80 then fixedN 8 (fun n => .ulong (UInt64.ofNat n)) r
    else if t = 0x54 then fixedN 1 (fun n => .int (Int32.ofInt (signedOf 8 n))) r
    else if t = 0x71 then fixedN 4 (fun n => .int (Int32.ofInt (signedOf 32 n))) r
    else if t = 0x55 then fixedN 1 (fun n => .long (Int64.ofInt (signedOf 8 n))) r
    else if t = 0x81 then fixedN 8 (fun n => .long (Int64.ofInt (signedOf 64 n))) r
    else if t = 0x83 then fixedN 8 (fun n => .time (Int64.ofInt (signedOf 64 n))) r
    else if t = 0xa0 then octetsN 1 (fun b => some (.bin b)) r
    else if t = 0xb0 then octetsN 4 (fun b => some (.bin b)) r
    else if t = 0xa1 then octetsN 1 (readUtf8 .str) r
    else if t = 0xb1 then octetsN 4 (readUtf8 .str) r
    else if t = 0xa3 then octetsN 1 (readUtf8 .sym) r
    else if t = 0xb3 then octetsN 4 (readUtf8 .sym) r
    else if t = 0x45 then some (.val (.list []) r)
    else if t = 0xc0 then compound 1 .list r
    else if t = 0xd0 then compound 4 .list r
    else if t = 0xc1 then compound 1 .map r
    else if t = 0xd1 then compound 4 .map r
    else none

mutual
/-- The library's `ReadAny`, to a depth of `fuel`. -/
def readAny : Nat → List UInt8 → Option (WVal × List UInt8)
  | 0, _ => none
  | fuel + 1, bs =>
    match readHead bs with
    | none => none
    | some (.val v r) => some (v, r)
    | some (.list n r) => (readMany fuel n r).map fun p => (.list p.1, p.2)
    | some (.map n r) => (readMany fuel n r).map fun p => (.map p.1, p.2)
/-- `n` values, one after the other. -/
def readMany : Nat → Nat → List UInt8 → Option (List WVal × List UInt8)
  | 0, _, _ => none
  | fuel + 1, n, bs =>
    match n with
    | 0 => some ([], bs)
    | n + 1 =>
      match readAny fuel bs with
      | none => none
      | some (v, r) => (readMany fuel n r).map fun p => (v :: p.1, p.2)
end

/-- A value read as far as the octets reach. -/
def readWire (bs : List UInt8) : Option (WVal × List UInt8) := readAny (bs.length + 1) bs

/-! ## Go values -/

/-- The Go value `ReadAny` returns; a symbol comes back as a string. Values other than the five kinds of the attributes
(encoding/encoder.go:75-77) are kept as their Go type only. -/
def _root_.Verif.WVal.toAny : WVal → Any
  | .null => .nil
  | .bool _ => .other "bool"
  | .ubyte _ => .other "uint8"
  | .uint n => .u32 n
  | .ulong n => .u64 n
  | .int n => .i32 n
  | .long n => .i64 n
  | .time _ => .other "time.Time"
  | .bin _ => .other "[]uint8"
  | .str s | .sym s => .str s
  | .list _ => .other "[]interface {}"
  | .map _ => .other "map"

/-- Can the library use the value as a key of a `map[any]any`? -/
def _root_.Verif.WVal.isKey : WVal → Bool
  | .bin _ | .list _ | .map _ | .null => false
  | _ => true

/-- Does the value come back as a string? -/
def _root_.Verif.WVal.isText : WVal → Bool
  | .str _ | .sym _ => true
  | _ => false

/-- Keys and values in turn, entered into a `map[any]any` that holds `acc`. -/
def fillAny : List WVal → Attrs → Option Attrs
  | [], acc => some acc
  | [_], _ => none
  | k :: v :: l, acc => if k.isKey then fillAny l (acc.set k.toAny v.toAny) else none

/-- Keys and values in turn, entered into a `map[string]any`: keys must be strings. -/
def fillText : List WVal → GMap String Any → Option (GMap String Any)
  | [], acc => some acc
  | [_], _ => none
  | .str k :: v :: l, acc | .sym k :: v :: l, acc => fillText l (acc.set k v.toAny)
  | _, _ => none

/-- Are all the keys strings? -/
def textKeys : List WVal → Bool
  | [] | [_] => true
  | k :: _ :: l => k.isText && textKeys l

/-- An element of a list of `ReadAny`: a map whose keys are all strings comes back as a `map[string]any`, which is not the type
messages.go:215 asserts; an empty map and any other map as a `map[any]any`. -/
def _root_.Verif.WVal.toElem : WVal → Option Elem
  | .map l => (fillAny l []).map fun m =>
      if textKeys l && !l.isEmpty then .other "map[string]interface {}" else .map (some m)
  | .null => some (.other "<nil>")
  | .list _ => some (.other "[]interface {}")
  | _ => some (.other "scalar")

/-- The elements of a list. -/
def toElems : List WVal → Option (List Elem)
  | [] => some []
  | v :: l => v.toElem.bind fun e => (toElems l).map fun es => e :: es

/-- `amqp.Message.Value`. -/
def _root_.Verif.WVal.toValue : WVal → Option MsgValue
  | .null => some .nil
  | .list l => (toElems l).map .list
  | .map l => (fillAny l []).map fun _ => .other "map"
  | _ => some (.other "scalar")

/-- A field of type `*string` of `amqp.MessageProperties`: nil for null. -/
def _root_.Verif.WVal.toText : WVal → Option (Option String)
  | .null => some none
  | .str s | .sym s => some (some s)
  | _ => none

/-- `amqp.MessageProperties` from the fields of the properties section (13 at most): message-id, user-id, to, subject, reply-to
come first. The types of the fields vanflow does not read are not checked here. -/
def propsOf (l : List WVal) : Option MsgProps :=
  if 13 < l.length then none
  else (l.getD 2 .null).toText.bind fun to => (l.getD 3 .null).toText.bind fun subject =>
    (l.getD 4 .null).toText.map fun replyTo => { to := to, subject := subject, replyTo := replyTo }

/-- One section of a message, by its code: header, delivery annotations, annotations and footer hold nothing vanflow reads; nor
do data and sequence bodies. -/
def readSection (code : UInt64) (v : WVal) (m : Msg) : Option Msg :=
  if code = 0x73 then
    match v with
    | .list l => (propsOf l).map fun p => { m with props := some p }
    | _ => none
  else if code = 0x74 then
    match v with
    | .map l => (fillText l []).map fun a => { m with appProps := a }
    | _ => none
  else if code = 0x77 then v.toValue.map fun x => { m with value := x }
  else if code = 0x70 ∨ code = 0x71 ∨ code = 0x72 ∨ code = 0x75 ∨ code = 0x76 ∨ code = 0x78 then some m
  else none

/-- `Message.UnmarshalBinary`, the loop over the sections. -/
def readSections : Nat → List UInt8 → Msg → Option Msg
  | 0, _, _ => none
  | _ + 1, [], m => some m
  | fuel + 1, b :: bs, m =>
    if b ≠ 0 then none
    else match readWire bs with
      | some (.ulong code, r) =>
        match readWire r with
        | some (v, r') => (readSection code v m).bind fun m' => readSections fuel r' m'
        | none => none
      | _ => none

/-- `Message.UnmarshalBinary`. -/
def unmarshal (bs : List UInt8) : Option Msg := readSections (bs.length + 1) bs {}

/-! ## Writing -/

/-- Four octets, most significant first. -/
def be32 (n : Nat) : List UInt8 := [UInt8.ofNat (n / 2 ^ 24), UInt8.ofNat (n / 2 ^ 16), UInt8.ofNat (n / 2 ^ 8), UInt8.ofNat n]

/-- Eight octets, most significant first. -/
def be64 (n : Nat) : List UInt8 := be32 (n / 2 ^ 32) ++ be32 n

/-- A string or other sequence of octets, in the short form below 256 octets. -/
def writeOctets (short long : UInt8) (bs : List UInt8) : List UInt8 :=
  if bs.length < 256 then short :: UInt8.ofNat bs.length :: bs else long :: be32 bs.length ++ bs

mutual
/-- The library's `Marshal`: the shortest form of a number, the long form of a list or map. -/
def marshal : WVal → List UInt8
  | .null => [0x40]
  | .bool b => [if b then 0x41 else 0x42]
  | .ubyte n => [0x50, n]
  | .uint n => if n = 0 then [0x43] else if n.toNat < 256 then [0x52, UInt8.ofNat n.toNat] else 0x70 :: be32 n.toNat
  | .ulong n => if n = 0 then [0x44] else if n.toNat < 256 then [0x53, UInt8.ofNat n.toNat] else 0x80 :: be64 n.toNat
  | .int n =>
    if -128 ≤ n.toInt ∧ n.toInt < 128 then [0x54, UInt8.ofNat n.toUInt32.toNat] else 0x71 :: be32 n.toUInt32.toNat
  | .long n =>
    if -128 ≤ n.toInt ∧ n.toInt < 128 then [0x55, UInt8.ofNat n.toUInt64.toNat] else 0x81 :: be64 n.toUInt64.toNat
  | .time n => 0x83 :: be64 n.toUInt64.toNat
  | .bin bs => writeOctets 0xa0 0xb0 bs
  | .str s => writeOctets 0xa1 0xb1 (utf8 s)
  | .sym s => writeOctets 0xa3 0xb3 (utf8 s)
  | .list [] => [0x45]
  | .list (v :: l) =>
    0xd0 :: be32 ((marshal v ++ marshalAll l).length + 4) ++ be32 (l.length + 1) ++ (marshal v ++ marshalAll l)
  | .map l => 0xd1 :: be32 ((marshalAll l).length + 4) ++ be32 l.length ++ marshalAll l
/-- Values one after the other. -/
def marshalAll : List WVal → List UInt8
  | [] => []
  | v :: l => marshal v ++ marshalAll l
end

/-- The AMQP value of an attribute; other Go types are refused here. -/
def wireAny : Any → Option WVal
  | .nil => some .null
  | .str s => some (.str s)
  | .u32 n => some (.uint n)
  | .u64 n => some (.ulong n)
  | .i32 n => some (.int n)
  | .i64 n => some (.long n)
  | .other _ => none

/-- The keys and values of a map, in the order in which they are iterated. -/
def wireAttrs : Attrs → Option (List WVal)
  | [] => some []
  | (k, v) :: m => (wireAny k).bind fun k' => (wireAny v).bind fun v' => (wireAttrs m).map fun l => k' :: v' :: l

/-- The keys and values of the application properties. -/
def wireText : GMap String Any → Option (List WVal)
  | [] => some []
  | (k, v) :: m => (wireAny v).bind fun v' => (wireText m).map fun l => .str k :: v' :: l

/-- An element of a record message (a nil map is written like an empty one). -/
def wireElem : Elem → Option WVal
  | .map (some m) => (wireAttrs m).map .map
  | .map none => some (.map [])
  | .other _ => none

def wireElems : List Elem → Option (List WVal)
  | [] => some []
  | e :: es => (wireElem e).bind fun v => (wireElems es).map fun l => v :: l

/-- A pointer to a string, or null. -/
def wireOpt : Option String → WVal
  | none => .null
  | some s => .str s

/-- The fields of the properties, without the nulls at the end. -/
def wireProps (p : MsgProps) : List WVal :=
  match p.to, p.subject, p.replyTo with
  | none, none, none => []
  | some t, none, none => [.null, .null, .str t]
  | t, some s, none => [.null, .null, wireOpt t, .str s]
  | t, s, some r => [.null, .null, wireOpt t, wireOpt s, .str r]

/-- One section: descriptor and value. -/
def writeSection (code : UInt8) (v : WVal) : List UInt8 := 0x00 :: 0x53 :: code :: marshal v

/-- The properties section, if there are properties. -/
def writeProps : Option MsgProps → List UInt8
  | none => []
  | some p => writeSection 0x73 (.list (wireProps p))

/-- The application properties section, if there are any. -/
def writeApp (l : List WVal) : List UInt8 := if l.isEmpty then [] else writeSection 0x74 (.map l)

/-- `Message.MarshalBinary`: properties, application properties and value, each if it is there. -/
def marshalMsg (m : Msg) : Option (List UInt8) :=
  (wireText m.appProps).bind fun app =>
    match m.value with
    | .nil => some (writeProps m.props ++ writeApp app)
    | .list es => (wireElems es).map fun l => writeProps m.props ++ writeApp app ++ writeSection 0x77 (.list l)
    | .other _ => none

/-- `Sender.Send` (go-amqp sender.go): the message is refused, before anything is written, if it cannot be marshalled or is longer than the peer of the link allows
(`max`, 0 for no limit); otherwise these octets are sent. -/
def sendOctets (max : Nat) (m : Msg) : Except String (List UInt8) :=
  match marshalMsg m with
  | none => .error "marshal"
  | some bs => if max ≠ 0 ∧ max < bs.length then .error "encoded message size exceeds max" else .ok bs

end Verif.Model
