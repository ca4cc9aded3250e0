import Verif.Model.Serve
import Verif.Spec.Store

/-!
# Specification of the record server
-/
namespace Verif.Spec
open Verif Verif.Model

/-- A time that RFC 3339 can write: in the years 0 to 9999. -/
def Writable (t : GoTime) : Prop := -62167219200 ≤ t.sec ∧ t.sec < 253402300800

/-- The time in a field, if there is one. -/
def timeIn : FVal GoTime → Option GoTime
  | .ptr (.custom t) => some t
  | _ => none

/-- The times in an entry. -/
def timesOf (e : Entry (GoRec GoTime)) : List GoTime :=
  e.md.updatedAt ::
    match e.record with
    | .value r | .pointer r => ([r.mem [0, 1], r.mem [0, 2]]).filterMap timeIn
    | _ => []

/-- The last thing the discovery said about a source id. -/
def knownSource (id : String) (evs : List ServeEv) : Option Info :=
  evs.foldl (fun k ev =>
    match ev with
    | .discovered i true => if i.id = id then some i else k
    | .forgotten i => if i.id = id then none else k
    | _ => k) none

/-- The reference under which the records of a source are stored. -/
def refOf (i : Info) : SourceRef := { apiVersion := toString i.version, type := i.type, name := i.id }

/-- The messages come from clients, and a client is only made for a discovered source. -/
def FromClients (evs : List ServeEv) : Prop :=
  ∀ pre src rs post, evs = pre ++ .records src rs :: post → ∃ i, refOf i = src ∧ ServeEv.discovered i true ∈ pre

end Verif.Spec
