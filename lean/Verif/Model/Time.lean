import Verif.Model.Encoding

/-!
# Model of `vanflow.Time` (`/repo/base.go`)
-/
namespace Verif.Model
open Verif

/-- `time.Time` as Unix seconds and nanoseconds within the second. Simplification: no location, no monotonic clock. -/
structure GoTime where
  sec : Int
  nsec : Nat
deriving DecidableEq, Repr

/-- Seconds of January 1, year 1 UTC relative to the Unix epoch (Go `time` package, the zero Time). -/
def zeroSec : Int := -62135596800

/-- `time.Time{}` -/
def GoTime.zero : GoTime := { sec := zeroSec, nsec := 0 }

/-- `time.Time.IsZero` (used in base.go:57). -/
def GoTime.isZero (t : GoTime) : Bool := t.sec == zeroSec && t.nsec == 0

/-- `time.Time.UnixMicro` (used in base.go:60): `unixSec*1e6 + nsec/1e3` in 64-bit wrapping arithmetic. -/
def GoTime.unixMicro (t : GoTime) : Int := Int.bmod (t.sec * 1000000 + (t.nsec / 1000 : Nat)) (2 ^ 64)

/-- `time.UnixMicro` (used in base.go:75). -/
def GoTime.ofUnixMicro (us : Int) : GoTime :=
  { sec := us / 1000000, nsec := (us % 1000000).toNat * 1000 }

/-- base.go:56-65 `Time.EncodeRecordAttribute`. -/
def timeEncode (t : GoTime) : Except EncErr Any :=
  if t.isZero then .error .notSet
  else
    let ts := t.unixMicro
    if ts < 0 then .error (.fail "cannot represent times before epoch in this encoding")
    else .ok (.u64 (UInt64.ofNat ts.toNat))

/-- base.go:67-77 `Time.DecodeRecordAttribute`. -/
def timeDecode : Any → Except String GoTime
  | .u64 n =>
    if n.toNat > 2 ^ 63 - 1 then .error "time too far in future for internal representation"
    else .ok (GoTime.ofUnixMicro n.toNat)
  | _ => .error "expected type uint64 for timestamp"

/-- `vanflow.Time` as a user attribute type. -/
def timeCodec : Codec GoTime := { enc := timeEncode, dec := timeDecode, zero := GoTime.zero }

/-- The codecs in scope for vanflow records: `vanflow.Time` is the only user attribute type. -/
def vanEnv : CodecEnv GoTime := fun _ => timeCodec

end Verif.Model
