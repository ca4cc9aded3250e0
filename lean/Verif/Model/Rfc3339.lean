import Verif.Model.Time

/-!
# `time.Time` as JSON text (Go's `time` package: `Time.MarshalJSON`, `Time.UnmarshalJSON`, format_rfc3339.go)

Needed for what `vanflow-tool` writes and reads (`/repo/cmd/vanflow-tool/serve.go:64, 74`, `/repo/cmd/vanflow-tool/fixture.go:159, 378`).
Times are written in UTC: a `GoTime` has no location.  Read are all texts of RFC 3339, with any offset; the few others that Go also takes (a comma before the fraction, an hour of one digit) are refused here.
Dates are those of the proleptic Gregorian calendar; days are numbered from 0000-01-01.
-/
namespace Verif.Model
open Verif

def isLeap (y : Nat) : Bool := y % 4 == 0 && (y % 100 != 0 || y % 400 == 0)

def yearDays (y : Nat) : Nat := if isLeap y then 366 else 365

/-- Months are numbered from 1. -/
def monthDays (y m : Nat) : Nat :=
  if m = 2 then (if isLeap y then 29 else 28) else if m = 4 ∨ m = 6 ∨ m = 9 ∨ m = 11 then 30 else 31

/-- The number of the first day of a year. -/
def yearStart : Nat → Nat
  | 0 => 0
  | y + 1 => yearStart y + yearDays y

/-- The days of a year before its month number `m + 1`. -/
def monthStart (y : Nat) : Nat → Nat
  | 0 => 0
  | m + 1 => monthStart y m + monthDays y (m + 1)

/-- The number of a day. -/
def dayNumber (y m d : Nat) : Nat := yearStart y + monthStart y (m - 1) + (d - 1)

/-- The year (from `y` on) of day `n` counted from the first of `y`, and the day in it; at most `fuel` years are tried. -/
def findYear : Nat → Nat → Nat → Nat × Nat
  | 0, y, n => (y, n)
  | fuel + 1, y, n => if n < yearDays y then (y, n) else findYear fuel (y + 1) (n - yearDays y)

/-- The month (from `m` on) of a day of a year counted from the first of `m`, and the day in it, from 1. -/
def findMonth (y : Nat) : Nat → Nat → Nat → Nat × Nat
  | 0, m, n => (m, n + 1)
  | fuel + 1, m, n => if n < monthDays y m then (m, n + 1) else findMonth y fuel (m + 1) (n - monthDays y m)

/-- The date of a day before the year 10000. -/
def dateOf (n : Nat) : Nat × Nat × Nat :=
  let (y, k) := findYear 10000 0 n
  let (m, d) := findMonth y 12 1 k
  (y, m, d)

/-- A digit. -/
def digitChar' (n : Nat) : Char := Char.ofNat (48 + n)

/-- A number in `w` digits. -/
def padded : Nat → Nat → List Char
  | 0, _ => []
  | w + 1, n => padded w (n / 10) ++ [digitChar' (n % 10)]

/-- Without the zeros at the end. -/
def trimZeros (cs : List Char) : List Char := (cs.reverse.dropWhile (· == '0')).reverse

/-- The seconds from 0000-01-01 to 1970-01-01. -/
def epochShift : Int := 62167219200

/-- `Time.MarshalJSON`, without the quotes: layout "2006-01-02T15:04:05.999999999Z07:00"; fails when the year is not between 0 and 9999. -/
def formatTime (t : GoTime) : Option String :=
  if -62167219200 ≤ t.sec ∧ t.sec < 253402300800 then
    let s := (t.sec + epochShift).toNat
    let (y, m, d) := dateOf (s / 86400)
    let q := s % 86400
    let frac := if t.nsec = 0 then [] else '.' :: trimZeros (padded 9 t.nsec)
    some (String.ofList (padded 4 y ++ '-' :: (padded 2 m ++ '-' :: (padded 2 d ++ 'T' :: (padded 2 (q / 3600) ++ ':' :: (padded 2 (q / 60 % 60) ++ ':' :: (padded 2 (q % 60) ++ (frac ++ ['Z']))))))))
  else none

def digitVal (c : Char) : Option Nat := if 48 ≤ c.toNat ∧ c.toNat ≤ 57 then some (c.toNat - 48) else none

/-- Exactly `w` digits. -/
def readDigits : Nat → Nat → List Char → Option (Nat × List Char)
  | 0, acc, cs => some (acc, cs)
  | w + 1, acc, c :: cs => (digitVal c).bind fun v => readDigits w (10 * acc + v) cs
  | _ + 1, _, [] => none

/-- This character. -/
def readChar (c : Char) : List Char → Option (List Char)
  | [] => none
  | d :: cs => if d = c then some cs else none

/-- The digits of a fraction as nanoseconds: the first nine count; `w` more are wanted. -/
def readNanos : Nat → Nat → List Char → Nat × List Char
  | w, acc, c :: cs =>
    match digitVal c with
    | some v =>
      match w with
      | 0 => readNanos 0 acc cs
      | w + 1 => readNanos w (10 * acc + v) cs
    | none => (acc * 10 ^ w, c :: cs)
  | w, acc, [] => (acc * 10 ^ w, [])

/-- An optional fraction: a point and at least one digit. -/
def readFraction : List Char → Option (Nat × List Char)
  | '.' :: c :: cs => if (digitVal c).isSome then some (readNanos 9 0 (c :: cs)) else none
  | cs => some (0, cs)

/-- The zone, as seconds east of UTC. -/
def readZone : List Char → Option (Int × List Char)
  | 'Z' :: cs => some (0, cs)
  | c :: cs =>
    if c = '+' ∨ c = '-' then
      (readDigits 2 0 cs).bind fun (h, cs) => (readChar ':' cs).bind fun cs => (readDigits 2 0 cs).bind fun (m, cs) =>
        if h ≤ 23 ∧ m ≤ 59 then some ((if c = '+' then 1 else -1) * (3600 * h + 60 * m : Nat), cs) else none
    else none
  | [] => none

/-- `Time.UnmarshalJSON` of a text in quotes, without them. -/
def parseTime (s : String) : Option GoTime :=
  (readDigits 4 0 s.toList).bind fun (y, cs) => (readChar '-' cs).bind fun cs =>
  (readDigits 2 0 cs).bind fun (m, cs) => (readChar '-' cs).bind fun cs =>
  (readDigits 2 0 cs).bind fun (d, cs) => (readChar 'T' cs).bind fun cs =>
  (readDigits 2 0 cs).bind fun (hh, cs) => (readChar ':' cs).bind fun cs =>
  (readDigits 2 0 cs).bind fun (mm, cs) => (readChar ':' cs).bind fun cs =>
  (readDigits 2 0 cs).bind fun (ss, cs) => (readFraction cs).bind fun (ns, cs) => (readZone cs).bind fun (off, cs) =>
    if 1 ≤ m ∧ m ≤ 12 ∧ 1 ≤ d ∧ d ≤ monthDays y m ∧ hh ≤ 23 ∧ mm ≤ 59 ∧ ss ≤ 59 ∧ cs = [] then
      some { sec := ((dayNumber y m d * 86400 + hh * 3600 + mm * 60 + ss : Nat) : Int) - epochShift - off, nsec := ns }
    else none

end Verif.Model
