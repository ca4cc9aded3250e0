import Verif.Model.Records

/-!
# `NewBase` (`/repo/base.go:31-47`)
-/
namespace Verif.Model
open Verif

/-- base.go:25-29 `BaseRecord` as a value; `none` is a nil `*Time`. -/
structure BaseVal where
  id : String
  startTime : Option GoTime
  endTime : Option GoTime
deriving DecidableEq, Repr

/-- base.go:33-40: the closure `nextTime`, with the captured variable `times` passed in and out. -/
def nextTime : List GoTime → Option GoTime × List GoTime
  | [] => (none, [])
  | t :: ts => (some t, ts)

/-- base.go:31-47 `NewBase`. -/
def newBase (id : String) (times : List GoTime) : Res BaseVal :=
  let (start, times) := nextTime times
  let (stop, times) := nextTime times
  let (add, _) := nextTime times
  match add with
  | some _ => .panic "expected at most two times for start and end"
  | none => .ok { id := id, startTime := start, endTime := stop }

/-- A `*Time` field. -/
def timePtr : Option GoTime → FVal GoTime
  | none => .nilp
  | some t => .ptr (.custom t)

/-- `b` embedded in a record: the rest of the record is `m`. -/
def BaseVal.into (b : BaseVal) (m : Mem GoTime) : Mem GoTime :=
  ((m.set [0, 0] (.str b.id)).set [0, 1] (timePtr b.startTime)).set [0, 2] (timePtr b.endTime)

end Verif.Model
