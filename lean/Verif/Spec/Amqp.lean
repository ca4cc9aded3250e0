import Verif.Basic.Amqp

/-!
# Which octets stand for a value (AMQP 1.0)

The encodings of OASIS AMQP 1.0, part 1, section 1.6, for the types of `WVal`: any of the standard's forms of a value is allowed,
so that a statement about `Enc` is about every conforming peer, whichever forms it prefers. Octet counts and element counts are
relations between the fields of an encoding and its contents; there is no writer here.
-/
namespace Verif.Spec
open Verif

mutual
/-- `Enc v bs`: the octets `bs` are an encoding of `v`. -/
inductive Enc : WVal → List UInt8 → Prop
  | null : Enc .null [0x40]
  | bool {b : Bool} : Enc (.bool b) [if b then 0x41 else 0x42]
  | bool8 {b : Bool} : Enc (.bool b) [0x56, if b then 1 else 0]
  | ubyte {n : UInt8} : Enc (.ubyte n) [0x50, n]
  | uint0 : Enc (.uint 0) [0x43]
  | uint8 {n : UInt32} {b : UInt8} (h : n.toNat = b.toNat) : Enc (.uint n) [0x52, b]
  | uint {n : UInt32} {bs : List UInt8} (hl : bs.length = 4) (h : n.toNat = beNat bs) : Enc (.uint n) (0x70 :: bs)
  | ulong0 : Enc (.ulong 0) [0x44]
  | ulong8 {n : UInt64} {b : UInt8} (h : n.toNat = b.toNat) : Enc (.ulong n) [0x53, b]
  | ulong {n : UInt64} {bs : List UInt8} (hl : bs.length = 8) (h : n.toNat = beNat bs) : Enc (.ulong n) (0x80 :: bs)
  | int8 {n : Int32} {b : UInt8} (h : n.toInt = signedOf 8 b.toNat) : Enc (.int n) [0x54, b]
  | int {n : Int32} {bs : List UInt8} (hl : bs.length = 4) (h : n.toInt = signedOf 32 (beNat bs)) : Enc (.int n) (0x71 :: bs)
  | long8 {n : Int64} {b : UInt8} (h : n.toInt = signedOf 8 b.toNat) : Enc (.long n) [0x55, b]
  | long {n : Int64} {bs : List UInt8} (hl : bs.length = 8) (h : n.toInt = signedOf 64 (beNat bs)) : Enc (.long n) (0x81 :: bs)
  | time {n : Int64} {bs : List UInt8} (hl : bs.length = 8) (h : n.toInt = signedOf 64 (beNat bs)) : Enc (.time n) (0x83 :: bs)
  | bin8 {bs : List UInt8} {n : UInt8} (h : n.toNat = bs.length) : Enc (.bin bs) (0xa0 :: n :: bs)
  | bin32 {bs n : List UInt8} (hl : n.length = 4) (h : beNat n = bs.length) : Enc (.bin bs) (0xb0 :: n ++ bs)
  | str8 {s : String} {n : UInt8} (h : n.toNat = (utf8 s).length) : Enc (.str s) (0xa1 :: n :: utf8 s)
  | str32 {s : String} {n : List UInt8} (hl : n.length = 4) (h : beNat n = (utf8 s).length) : Enc (.str s) (0xb1 :: n ++ utf8 s)
  | sym8 {s : String} {n : UInt8} (h : n.toNat = (utf8 s).length) : Enc (.sym s) (0xa3 :: n :: utf8 s)
  | sym32 {s : String} {n : List UInt8} (hl : n.length = 4) (h : beNat n = (utf8 s).length) : Enc (.sym s) (0xb3 :: n ++ utf8 s)
  | list0 : Enc (.list []) [0x45]
  | list8 {l : List WVal} {body : List UInt8} {size count : UInt8} (hb : Encs l body) (hs : size.toNat = body.length + 1)
      (hc : count.toNat = l.length) : Enc (.list l) (0xc0 :: size :: count :: body)
  | list32 {l : List WVal} {body size count : List UInt8} (hb : Encs l body) (hsl : size.length = 4) (hcl : count.length = 4)
      (hs : beNat size = body.length + 4) (hc : beNat count = l.length) : Enc (.list l) (0xd0 :: size ++ count ++ body)
  | map8 {l : List WVal} {body : List UInt8} {size count : UInt8} (he : l.length % 2 = 0) (hb : Encs l body)
      (hs : size.toNat = body.length + 1) (hc : count.toNat = l.length) : Enc (.map l) (0xc1 :: size :: count :: body)
  | map32 {l : List WVal} {body size count : List UInt8} (he : l.length % 2 = 0) (hb : Encs l body) (hsl : size.length = 4)
      (hcl : count.length = 4) (hs : beNat size = body.length + 4) (hc : beNat count = l.length) :
      Enc (.map l) (0xd1 :: size ++ count ++ body)
/-- `Encs l bs`: the octets `bs` are encodings of the values of `l`, one after the other. -/
inductive Encs : List WVal → List UInt8 → Prop
  | nil : Encs [] []
  | cons {v : WVal} {l : List WVal} {a b : List UInt8} (h : Enc v a) (hs : Encs l b) : Encs (v :: l) (a ++ b)
end

mutual
/-- Every map in the value has a value for each key. -/
def Paired : WVal → Prop
  | .list l => PairedAll l
  | .map l => l.length % 2 = 0 ∧ PairedAll l
  | _ => True
/-- The same for each of several values. -/
def PairedAll : List WVal → Prop
  | [] => True
  | v :: l => Paired v ∧ PairedAll l
end

/-- One section of a message (AMQP 1.0, part 3, section 3.2): a described value whose descriptor is the section's code. -/
def SectionEnc (code : UInt64) (v : WVal) (bs : List UInt8) : Prop :=
  ∃ d a, Enc (.ulong code) d ∧ Enc v a ∧ bs = 0x00 :: d ++ a

/-- Several sections, one after the other. -/
inductive SectionsEnc : List (UInt64 × WVal) → List UInt8 → Prop
  | nil : SectionsEnc [] []
  | cons {c : UInt64} {v : WVal} {l : List (UInt64 × WVal)} {a b : List UInt8} (h : SectionEnc c v a) (hs : SectionsEnc l b) :
      SectionsEnc ((c, v) :: l) (a ++ b)

end Verif.Spec
