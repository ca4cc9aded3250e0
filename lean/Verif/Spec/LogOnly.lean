import Verif.Model.LogOnly

/-!
# What C84 speaks about
-/
namespace Verif.Spec
open Verif Verif.Model

/-- The messages given to the handlers by thread `t`, in order. -/
def givenBy (t : Nat) (evs : List LgEv) : List Decoded := evs.filterMap fun
  | .handled u d => if u = t then some d else none
  | _ => none

/-- The values put into the channel by thread `t`, in order. -/
def putBy (t : Nat) (evs : List LgEv) : List Line := evs.filterMap fun
  | .put u l => if u = t then some l else none
  | _ => none

/-- All values put into the channel, in order. -/
def allPut (evs : List LgEv) : List Line := evs.filterMap fun
  | .put _ l => some l
  | _ => none

/-- What became of the values taken from the channel: `true` if written. -/
def outcomes (evs : List LgEv) : List (Line × Bool) := evs.filterMap fun
  | .wrote l => some (l, true)
  | .dropped l => some (l, false)
  | _ => none

/-- The lines written, in order. -/
def writtenLines (evs : List LgEv) : List Line := evs.filterMap fun
  | .wrote l => some l
  | _ => none

/-- The line says what the message says. -/
def Describes : Decoded → Line → Prop
  | .heartbeat m, l => l.to = m.hdr.to ∧ l.subject = m.hdr.subject ∧ l.v = toString m.version ∧ l.now = toString m.now ∧ l.id = m.identity ∧ l.data = none
  | .record m, l => l.to = m.hdr.to ∧ l.subject = m.hdr.subject ∧ ∃ rs, l.data = some rs ∧ rs.map Prod.snd = m.records ∧
      ∀ n r, (n, .pointer r) ∈ rs → n = "*vanflow." ++ r.tname
  | _, _ => False

/-- All times in the record are in the years 0 to 9999 (UTC), the range of `time.Time.MarshalJSON`. -/
def YearsOk (r : GoRec GoTime) : Prop :=
  ∀ rv, r = .value rv ∨ r = .pointer rv → ∀ t, rv.mem [0, 1] = .ptr (.custom t) ∨ rv.mem [0, 2] = .ptr (.custom t) →
    -62167219200 ≤ t.sec ∧ t.sec < 253402300800

/-- All records of the line have such times. -/
def LineYearsOk (l : Line) : Prop := ∀ rs, l.data = some rs → ∀ x ∈ rs, YearsOk x.2

end Verif.Spec
