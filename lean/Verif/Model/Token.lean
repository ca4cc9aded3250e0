import Verif.Basic.Res

/-!
# Text tokens of the store: base64 and little-endian structs

`encoding/base64.StdEncoding` and `encoding/binary` with fixed-size structs, as used in `/repo/store/continue.go` and
`/repo/store/etag.go`.
-/
namespace Verif.Model
open Verif

/-- A digit of the standard base64 alphabet (`encoding/base64.StdEncoding`), for a value below 64. -/
def b64Char (n : Nat) : Char :=
  if n < 26 then Char.ofNat (65 + n)
  else if n < 52 then Char.ofNat (97 + (n - 26))
  else if n < 62 then Char.ofNat (48 + (n - 52))
  else if n = 62 then '+' else '/'

/-- The value of a base64 digit; `none` for every other character (padding included). -/
def b64Val (c : Char) : Option Nat :=
  let n := c.toNat
  if 65 ≤ n ∧ n ≤ 90 then some (n - 65)
  else if 97 ≤ n ∧ n ≤ 122 then some (n - 97 + 26)
  else if 48 ≤ n ∧ n ≤ 57 then some (n - 48 + 52)
  else if n = 43 then some 62
  else if n = 47 then some 63
  else none

/-- `base64.StdEncoding.EncodeToString`: three bytes to four digits, padded with `=`. -/
def b64Encode : List UInt8 → List Char
  | [] => []
  | [a] => [b64Char (a.toNat / 4), b64Char (a.toNat % 4 * 16), '=', '=']
  | [a, b] =>
    [b64Char (a.toNat / 4), b64Char (a.toNat % 4 * 16 + b.toNat / 16), b64Char (b.toNat % 16 * 4), '=']
  | a :: b :: c :: rest =>
    b64Char (a.toNat / 4) :: b64Char (a.toNat % 4 * 16 + b.toNat / 16)
      :: b64Char (b.toNat % 16 * 4 + c.toNat / 64) :: b64Char (c.toNat % 64) :: b64Encode rest

/-- The first byte of a quantum. -/
def b64Byte1 (x y : Nat) : UInt8 := UInt8.ofNat (x * 4 + y / 16)
/-- The second byte of a quantum. -/
def b64Byte2 (y z : Nat) : UInt8 := UInt8.ofNat (y % 16 * 16 + z / 4)
/-- The third byte of a quantum. -/
def b64Byte3 (z w : Nat) : UInt8 := UInt8.ofNat (z % 4 * 64 + w)

/-- `base64.StdEncoding.DecodeString` after dropping CR and LF: quanta of four digits, the last one possibly padded.
As in Go (the non-strict encoding) the unused bits before padding are not checked. -/
def b64Quanta : List Char → Option (List UInt8)
  | [] => some []
  | a :: b :: c :: d :: rest =>
    match b64Val a, b64Val b with
    | some x, some y =>
      match b64Val c, b64Val d with
      | some z, some w => (b64Quanta rest).map fun bs => b64Byte1 x y :: b64Byte2 y z :: b64Byte3 z w :: bs
      | some z, none => if d = '=' ∧ rest = [] then some [b64Byte1 x y, b64Byte2 y z] else none
      | none, _ => if c = '=' ∧ d = '=' ∧ rest = [] then some [b64Byte1 x y] else none
    | _, _ => none
  | _ => none

/-- `base64.StdEncoding.DecodeString`; CR and LF are skipped. -/
def b64Decode (s : List Char) : Option (List UInt8) :=
  b64Quanta (s.filter fun c => c ≠ '\r' ∧ c ≠ '\n')

/-- `binary.LittleEndian` bytes of an `n`-byte two's complement integer. -/
def leBytes : Nat → Int → List UInt8
  | 0, _ => []
  | n + 1, v => UInt8.ofNat (v % 256).toNat :: leBytes n (v / 256)

/-- The unsigned value of little-endian bytes. -/
def leNat : List UInt8 → Nat
  | [] => 0
  | b :: bs => b.toNat + 256 * leNat bs

/-- The two's complement value of little-endian bytes. -/
def leInt (bs : List UInt8) : Int := Int.bmod (leNat bs) (2 ^ (8 * bs.length))

/-- store/etag.go:18-21 `cacheETagToken`. -/
structure ETagToken where
  version : Int
  updatedAt : Int
deriving DecidableEq, Repr

/-- store/etag.go:23-32 `getETag`, from the version and `UpdatedAt.Unix()`. -/
def encodeETag (version updatedAt : Int) : String :=
  String.ofList (b64Encode (leBytes 8 version ++ leBytes 8 updatedAt))

/-- store/etag.go:34-43 `decodeETag`; `binary.Read` fails when fewer than 16 bytes are present and ignores
further bytes. -/
def decodeETag (etag : String) : Res ETagToken :=
  match b64Decode etag.toList with
  | none => .err "invalid ETag"
  | some bytes =>
    if bytes.length < 16 then .err "unexpected EOF"
    else .ok { version := leInt (bytes.take 8), updatedAt := leInt ((bytes.drop 8).take 8) }

/-- store/continue.go:30-38 `encodeCacheContinue`; `nonce` is `time.Now().Unix()`; the offset is truncated to int32
(continue.go:33) by writing only four bytes. -/
def encodeContinue (nonce offset : Int) : String :=
  String.ofList (b64Encode (leBytes 8 nonce ++ leBytes 4 offset))

/-- store/continue.go:19-28 `decodeCacheContinue`. -/
def decodeContinue (token : String) : Res Int :=
  match b64Decode token.toList with
  | none => .err "invalid continue token"
  | some bytes =>
    if bytes.length < 12 then .err "unexpected EOF"
    else .ok (leInt ((bytes.drop 8).take 4))

end Verif.Model
