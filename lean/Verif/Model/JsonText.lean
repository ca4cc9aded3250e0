import Verif.Model.Json

/-!
# The text of JSON values, as `encoding/json` writes and reads it

`/repo/cmd/vanflow-tool/serve.go:58, 80, 100` and `log.go:111` write with `json.NewEncoder(w).Encode`, `fixture.go:157-159` reads with `json.NewDecoder(r.Body).Decode`, `fixture.go:377` and
`main.go:87` with `json.Unmarshal`.  Modelled is the step between JSON values and text, of Go 1.21 (`go.mod`), as remembered: the package is not in `/repo`.

Simplified: text is a list of characters (what is not UTF-8 is left out); there is no limit on the depth of nesting (Go's is 10000); `-0` is a number that is not an integer (Go reads it into signed
fields); of numbers that are not integers only the syntax is modelled.
-/
namespace Verif.Model
open Verif

/-! ## Writing -/

/-- A lower case hexadecimal digit, encode.go `hex`. -/
def hexChar (n : Nat) : Char := if n < 10 then Char.ofNat (48 + n) else Char.ofNat (87 + n)

/-- `\u` and four hexadecimal digits. -/
def escapeUnit (n : Nat) : List Char := ['\\', 'u', hexChar (n / 4096 % 16), hexChar (n / 256 % 16), hexChar (n / 16 % 16), hexChar (n % 16)]

/-- encode.go `appendString`/`encodeState.string`, one character, with `escapeHTML` (the default of an `Encoder`). -/
def escapeChar (c : Char) : List Char :=
  if c = '"' then ['\\', '"']
  else if c = '\\' then ['\\', '\\']
  else if c = '\n' then ['\\', 'n']
  else if c = '\r' then ['\\', 'r']
  else if c = '\t' then ['\\', 't']
  else if c.toNat < 32 ∨ c = '<' ∨ c = '>' ∨ c = '&' ∨ c.toNat = 0x2028 ∨ c.toNat = 0x2029 then escapeUnit c.toNat
  else [c]

/-- A string with its quotes. -/
def writeString (s : String) : List Char := '"' :: (s.toList.flatMap escapeChar ++ ['"'])

/-- `strconv.AppendUint`, base 10. -/
def writeNat (n : Nat) : List Char := if n < 10 then [Char.ofNat (48 + n)] else writeNat (n / 10) ++ [Char.ofNat (48 + n % 10)]
termination_by n

/-- `strconv.AppendInt`, base 10. -/
def writeInt (n : Int) : List Char := if n < 0 then '-' :: writeNat n.natAbs else writeNat n.natAbs

mutual
/-- encode.go `reflectValue`; numbers that are not integers are not written by the tool. -/
def writeJson : Json → List Char
  | .null => ['n', 'u', 'l', 'l']
  | .bool true => ['t', 'r', 'u', 'e']
  | .bool false => ['f', 'a', 'l', 's', 'e']
  | .num n => writeInt n
  | .other => []
  | .str s => writeString s
  | .arr l => '[' :: (writeItems l ++ [']'])
  | .obj ms => '{' :: (writeMembers ms ++ ['}'])
/-- encode.go `arrayEncoder`: the items with commas between them. -/
def writeItems : List Json → List Char
  | [] => []
  | j :: js => writeJson j ++ writeMoreItems js
/-- The items after the first. -/
def writeMoreItems : List Json → List Char
  | [] => []
  | j :: js => ',' :: (writeJson j ++ writeMoreItems js)
/-- encode.go `structEncoder`, `mapEncoder`: the members with commas between them. -/
def writeMembers : List (String × Json) → List Char
  | [] => []
  | m :: ms => writeMember m ++ writeMoreMembers ms
/-- The members after the first. -/
def writeMoreMembers : List (String × Json) → List Char
  | [] => []
  | m :: ms => ',' :: (writeMember m ++ writeMoreMembers ms)
/-- A name and its value. -/
def writeMember : String × Json → List Char
  | (k, j) => writeString k ++ ':' :: writeJson j
end

/-- stream.go `Encoder.Encode`: a value and the end of the line. -/
def encodeText (j : Json) : List Char := writeJson j ++ ['\n']

/-! ## Reading -/

/-- scanner.go `isSpace`. -/
def isSpace (c : Char) : Bool := c = ' ' || c = '\t' || c = '\r' || c = '\n'

/-- scanner.go `stateBeginValue` and others skip white space. -/
def skipSpace : List Char → List Char
  | [] => []
  | c :: cs => if isSpace c then skipSpace cs else c :: cs

/-- decode.go `getu4`, one digit: of either case. -/
def hexVal (c : Char) : Option Nat :=
  if 48 ≤ c.toNat ∧ c.toNat ≤ 57 then some (c.toNat - 48)
  else if 97 ≤ c.toNat ∧ c.toNat ≤ 102 then some (c.toNat - 87)
  else if 65 ≤ c.toNat ∧ c.toNat ≤ 70 then some (c.toNat - 55)
  else none

/-- decode.go `getu4`: four digits. -/
def hexVal4 (a b c d : Char) : Option Nat :=
  match hexVal a, hexVal b, hexVal c, hexVal d with
  | some a, some b, some c, some d => some (((a * 16 + b) * 16 + c) * 16 + d)
  | _, _, _, _ => none

/-- What a string consists of before pairs of surrogates are put together: characters, and the units written as `\uXXXX`. -/
inductive StrTok where
  | char (c : Char)
  | unit (n : Nat)
deriving DecidableEq

/-- scanner.go `stateInStringEsc`, decode.go `unquoteBytes`: the escapes of one letter. -/
def simpleEscape (c : Char) : Option Char :=
  if c = '"' ∨ c = '\\' ∨ c = '/' then some c
  else if c = 'b' then some '\x08'
  else if c = 'f' then some '\x0c'
  else if c = 'n' then some '\n'
  else if c = 'r' then some '\r'
  else if c = 't' then some '\t'
  else none

/-- scanner.go `stateInString` to the closing quote, which is read. -/
def readToks : List Char → Option (List StrTok × List Char)
  | [] => none
  | '"' :: r => some ([], r)
  | '\\' :: 'u' :: a :: b :: c :: d :: r =>
    match hexVal4 a b c d with
    | none => none
    | some n => (readToks r).map fun x => (.unit n :: x.1, x.2)
  | '\\' :: e :: r =>
    match simpleEscape e with
    | none => none
    | some c => (readToks r).map fun x => (.char c :: x.1, x.2)
  | c :: r => if c = '\\' ∨ c.toNat < 32 then none else (readToks r).map fun x => (.char c :: x.1, x.2)

/-- `utf16.IsSurrogate`, the first of a pair. -/
def isHigh (n : Nat) : Bool := decide (0xD800 ≤ n ∧ n < 0xDC00)

/-- `utf16.IsSurrogate`, the second of a pair. -/
def isLow (n : Nat) : Bool := decide (0xDC00 ≤ n ∧ n < 0xE000)

/-- decode.go `unquoteBytes`: the character of a unit that is not in a pair; for a surrogate that is U+FFFD. -/
def unitChar (n : Nat) : Char := if isHigh n || isLow n then '�' else Char.ofNat n

/-- decode.go `unquoteBytes`: units to characters; two that are a pair are one character. -/
def joinToks : List StrTok → List Char
  | [] => []
  | .char c :: ts => c :: joinToks ts
  | .unit n :: .unit m :: ts =>
    if isHigh n && isLow m then Char.ofNat (0x10000 + (n - 0xD800) * 0x400 + (m - 0xDC00)) :: joinToks ts else unitChar n :: joinToks (.unit m :: ts)
  | .unit n :: ts => unitChar n :: joinToks ts

/-- A string after its opening quote. -/
def readString (cs : List Char) : Option (String × List Char) := (readToks cs).map fun x => (String.ofList (joinToks x.1), x.2)

/-- A decimal digit. -/
def isDigit (c : Char) : Bool := decide (48 ≤ c.toNat ∧ c.toNat ≤ 57)

/-- The digits at the start. -/
def readRun : List Char → List Char × List Char
  | [] => ([], [])
  | c :: cs => if isDigit c then (c :: (readRun cs).1, (readRun cs).2) else ([], c :: cs)

/-- scanner.go `state0`, `state1`: the integer part, without its sign. -/
def readIntPart : List Char → Option (List Char × List Char)
  | [] => none
  | c :: cs =>
    if c = '0' then some (['0'], cs)
    else if isDigit c then some (c :: (readRun cs).1, (readRun cs).2)
    else none

/-- scanner.go `stateDot`, `stateDot0`: the fraction, if there is one. -/
def readFracPart : List Char → Option (Bool × List Char)
  | '.' :: cs => if (readRun cs).1 = [] then none else some (true, (readRun cs).2)
  | cs => some (false, cs)

/-- scanner.go `stateESign`. -/
def skipSign : List Char → List Char
  | '+' :: cs => cs
  | '-' :: cs => cs
  | cs => cs

/-- scanner.go `stateE`, `stateE0`: the exponent, if there is one. -/
def readExpPart : List Char → Option (Bool × List Char)
  | [] => some (false, [])
  | c :: cs =>
    if c = 'e' ∨ c = 'E' then
      if (readRun (skipSign cs)).1 = [] then none else some (true, (readRun (skipSign cs)).2)
    else some (false, c :: cs)

/-- The number these digits stand for. -/
def natOfDigits (cs : List Char) : Nat := cs.foldl (fun n c => 10 * n + (c.toNat - 48)) 0

/-- A number without its sign. -/
def readAbs (neg : Bool) (cs : List Char) : Option (Json × List Char) :=
  match readIntPart cs with
  | none => none
  | some (ds, r1) =>
    match readFracPart r1 with
    | none => none
    | some (frac, r2) =>
      match readExpPart r2 with
      | none => none
      | some (exp, r3) =>
        some (if frac || exp || (neg && ds == ['0']) then .other else .num (if neg then -(natOfDigits ds : Int) else (natOfDigits ds : Int)), r3)

/-- scanner.go `stateNeg` and the states after it. -/
def readNumber : List Char → Option (Json × List Char)
  | '-' :: cs => readAbs true cs
  | cs => readAbs false cs

mutual
/-- scanner.go `stateBeginValue`: a value, without white space before it; what is left after it.  The first argument bounds the recursion: the length of the text is enough. -/
def readValue : Nat → List Char → Option (Json × List Char)
  | 0, _ => none
  | _, [] => none
  | n + 1, c :: r =>
    if c = '"' then (readString r).map fun x => (.str x.1, x.2)
    else if c = '[' then
      match skipSpace r with
      | ']' :: r' => some (.arr [], r')
      | r' => (readItems n r').map fun x => (.arr x.1, x.2)
    else if c = '{' then
      match skipSpace r with
      | '}' :: r' => some (.obj [], r')
      | r' => (readMembers n r').map fun x => (.obj x.1, x.2)
    else if c = 'n' then (match r with | 'u' :: 'l' :: 'l' :: r' => some (.null, r') | _ => none)
    else if c = 't' then (match r with | 'r' :: 'u' :: 'e' :: r' => some (.bool true, r') | _ => none)
    else if c = 'f' then (match r with | 'a' :: 'l' :: 's' :: 'e' :: r' => some (.bool false, r') | _ => none)
    else readNumber (c :: r)
/-- scanner.go `stateEndValue` in `parseArrayValue`: the items, of which there is one at least, to the closing bracket. -/
def readItems : Nat → List Char → Option (List Json × List Char)
  | 0, _ => none
  | n + 1, cs =>
    match readValue n cs with
    | none => none
    | some (j, r) =>
      match skipSpace r with
      | ']' :: r' => some ([j], r')
      | ',' :: r' => (readItems n (skipSpace r')).map fun x => (j :: x.1, x.2)
      | _ => none
/-- scanner.go `stateBeginString`, `stateEndValue` in `parseObjectKey` and `parseObjectValue`: the members, of which there is one at least, to the closing brace. -/
def readMembers : Nat → List Char → Option (List (String × Json) × List Char)
  | 0, _ => none
  | n + 1, cs =>
    match cs with
    | '"' :: r0 =>
      match readString r0 with
      | none => none
      | some (k, r1) =>
        match skipSpace r1 with
        | ':' :: r2 =>
          match readValue n (skipSpace r2) with
          | none => none
          | some (j, r3) =>
            match skipSpace r3 with
            | '}' :: r' => some ([(k, j)], r')
            | ',' :: r' => (readMembers n (skipSpace r')).map fun x => ((k, j) :: x.1, x.2)
            | _ => none
        | _ => none
    | _ => none
end

/-- stream.go `Decoder.Decode`: the first value of a text, and what is left. -/
def decodeFirst (cs : List Char) : Option (Json × List Char) := readValue cs.length (skipSpace cs)

/-- decode.go `Unmarshal`, `checkValid`: one value and nothing else. -/
def unmarshalText (cs : List Char) : Option Json :=
  match decodeFirst cs with
  | some (j, r) => if skipSpace r = [] then some j else none
  | none => none

/-! ## Requests and answers -/

/-- cmd/vanflow-tool/api.go:10-14 `RecordsResponse` without error: `refs` is left out when there are none. -/
def jsonOfAnswer (es : List (Entry (GoRec GoTime))) (refs : List String) : Option Json :=
  (jsonAll jsonOfEntry es).map fun l => .obj (("data", .arr l) :: if refs = [] then [] else [("refs", .arr (refs.map .str))])

/-- cmd/vanflow-tool/fixture.go:146-184 with the text of the request. -/
def uploadText (fold : String → String) (flows logs : Bool) (body : List Char) : Option (Res (GMap SourceRef (Cache (GoRec GoTime)))) :=
  (decodeFirst body).bind fun x => uploadJson fold flows logs x.1

end Verif.Model
