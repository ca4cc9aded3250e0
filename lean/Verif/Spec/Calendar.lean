import Verif.Model.Time

/-!
# Specification: dates and their texts
-/
namespace Verif.Spec
open Verif Verif.Model

/-- The days from 1970-01-01 to a date of the Gregorian calendar, by the usual formula with years that begin in March. -/
def civilDays (y m d : Int) : Int :=
  let y' := if m ≤ 2 then y - 1 else y
  let m' := if m ≤ 2 then m + 9 else m - 3
  365 * y' + y' / 4 - y' / 100 + y' / 400 + (153 * m' + 2) / 5 + (d - 1) - 719468

/-- A date: the day is before the first of the next month. -/
def IsDate (y m d : Int) : Prop :=
  1 ≤ m ∧ m ≤ 12 ∧ 1 ≤ d ∧ civilDays y m d < (if m = 12 then civilDays (y + 1) 1 1 else civilDays y (m + 1) 1)

/-- The value of decimal digits. -/
def numVal (cs : List Char) : Nat := cs.foldl (fun a c => 10 * a + (c.toNat - 48)) 0

/-- A number of this many digits. -/
def IsNum (w : Nat) (cs : List Char) : Prop := cs.length = w ∧ ∀ c ∈ cs, '0'.toNat ≤ c.toNat ∧ c.toNat ≤ '9'.toNat

/-- The text of a fraction of a second: what comes after the ninth digit does not count. -/
def FracText (cs : List Char) (ns : Nat) : Prop :=
  (cs = [] ∧ ns = 0) ∨ ∃ ds more, cs = '.' :: (ds ++ more) ∧ IsNum ds.length ds ∧ IsNum more.length more ∧ 1 ≤ ds.length ∧ ds.length ≤ 9 ∧ (more ≠ [] → ds.length = 9) ∧
    ns = numVal ds * 10 ^ (9 - ds.length)

/-- The text of a zone, and its seconds east of UTC. -/
def ZoneText (cs : List Char) (off : Int) : Prop :=
  (cs = ['Z'] ∧ off = 0) ∨ ∃ h m, IsNum 2 h ∧ IsNum 2 m ∧ numVal h < 24 ∧ numVal m < 60 ∧
    ((cs = '+' :: (h ++ ':' :: m) ∧ off = numVal h * 3600 + numVal m * 60) ∨ (cs = '-' :: (h ++ ':' :: m) ∧ off = -(numVal h * 3600 + numVal m * 60)))

/-- `cs` is an RFC 3339 text for this instant, with this fraction and zone. -/
def TimeText (cs frac zone : List Char) (t : GoTime) : Prop :=
  ∃ Y M D h m s off, cs = Y ++ '-' :: (M ++ '-' :: (D ++ 'T' :: (h ++ ':' :: (m ++ ':' :: (s ++ (frac ++ zone)))))) ∧
    IsNum 4 Y ∧ IsNum 2 M ∧ IsNum 2 D ∧ IsNum 2 h ∧ IsNum 2 m ∧ IsNum 2 s ∧ IsDate (numVal Y) (numVal M) (numVal D) ∧ numVal h < 24 ∧ numVal m < 60 ∧ numVal s < 60 ∧
    FracText frac t.nsec ∧ ZoneText zone off ∧
    t.sec = civilDays (numVal Y) (numVal M) (numVal D) * 86400 + numVal h * 3600 + numVal m * 60 + numVal s - off

end Verif.Spec
