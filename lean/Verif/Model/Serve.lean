import Verif.Model.FixtureStore
import Verif.Model.Keepalive

/-!
# The record server of `vanflow-tool` (`/repo/cmd/vanflow-tool/serve.go:39-182`)

What the HTTP handlers answer, as a function of the store, and what the discovery handlers do, as a function of what was there before.
`encoding/json` is reduced to whether it can encode a value: of the types in an entry only `time.Time` can fail (`Time.MarshalJSON`: "year outside of range [0,9999]").
Times are taken to be in UTC.  Not modelled: the text of the answers, logging, and the containers and clients made by the Discovered handler (client: `Verif/Model/Client.lean`,
watch: `Verif/Model/Watch.lean`).
-/
namespace Verif.Model
open Verif

/-- `time.Time.MarshalJSON` succeeds: the year is between 0 and 9999. -/
def jsonTimeOk (t : GoTime) : Bool := decide (-62167219200 ≤ t.sec ∧ t.sec < 253402300800)

/-- A field of type `*vanflow.Time` (base.go:27-28, 52-54: the embedded `time.Time` provides MarshalJSON). -/
def jsonFieldOk : FVal GoTime → Bool
  | .ptr (.custom t) => jsonTimeOk t
  | _ => true

/-- A record: the only times in the built-in kinds are the two of `BaseRecord` (base.go:25-29), at paths [0, 1] and [0, 2]. -/
def jsonRecordOk : GoRec GoTime → Bool
  | .value r | .pointer r => jsonFieldOk (r.mem [0, 1]) && jsonFieldOk (r.mem [0, 2])
  | _ => true

/-- An entry (store/store.go:15-41). -/
def jsonEntryOk (e : Entry (GoRec GoTime)) : Bool := jsonTimeOk e.md.updatedAt && jsonRecordOk e.record

/-- What a request gets: the status, and the data in the body; `none` is an empty body. -/
structure HttpAnswer where
  status : Nat
  body : Option (List (Entry (GoRec GoTime)))

/-- `enc.Encode(response)` with its error dropped (serve.go:64, 74, 107): nothing is written when a part of the response cannot be encoded; a status
that was not set is 200. -/
def answer (status : Nat) (data : List (Entry (GoRec GoTime))) : HttpAnswer :=
  { status := status, body := if data.all jsonEntryOk then some data else none }

/-- serve.go:56-75: the handler for "/". -/
def serveRoot (c : Cache (GoRec GoTime)) (path : String) : Res HttpAnswer :=
  if path ≠ "/" then .ok (answer 404 [])
  else
    match c.list none 0 with
    | .ok set => .ok (answer 200 set.entries)
    | .err _ => .ok (answer 500 [])
    | .panic m => .panic m

/-- serve.go:92-108: the handler for a record type. -/
def serveType (c : Cache (GoRec GoTime)) (tm : TypeMeta) : Res HttpAnswer :=
  match c.index "ByType" { md := Metadata.zero, typeMeta := tm, record := .nil } none 0 with
  | .ok set => .ok (answer 200 set.entries)
  | .err _ => .ok (answer 500 [])
  | .panic m => .panic m

/-- The sources map and the store. -/
structure Serve where
  sources : GMap String SourceRef := []
  store : Cache (GoRec GoTime)

/-- What happens to the server.  The discovery handlers are called one after the other. -/
inductive ServeEv where
  /-- the Discovered handler is called; `watched` tells whether NewWatchClient succeeded -/
  | discovered (source : Info) (watched : Bool)
  | forgotten (source : Info)
  /-- a client hands a message with records to the dispatcher of its source -/
  | records (source : SourceRef) (rs : List (GoRec GoTime × GoTime))

/-- serve.go:137-141 -/
def sourceRefOf (i : Info) : SourceRef := { apiVersion := toString i.version, type := i.type, name := i.id }

/-- serve.go:44-49: every configured type is registered with the one store (number 0). -/
def serveRegistry (types : List String) : GMap String Nat :=
  types.foldl (fun m t => m.set (TypeMeta.str { apiVersion := "flow/v1", type := t }) 0) []

/-- serve.go:123-181. -/
def Serve.step (types : List String) (s : Serve) : ServeEv → Serve
  | .discovered i watched => if watched then { s with sources := s.sources.set i.id (sourceRefOf i) } else s
  | .forgotten i => { s with sources := s.sources.del i.id }
  | .records src rs => { s with store := (dispatch vanOps (serveRegistry types) src rs (fun _ => s.store)).1 0 }

/-- From an empty server. -/
def Serve.run (types : List String) (evs : List ServeEv) : Serve :=
  evs.foldl (Serve.step types) { store := newCache vanOps (fixtureConfig vanOps) }

/-- serve.go:78-90: the handler for "/sources/". -/
def Serve.listSources (s : Serve) : List SourceRef := s.sources.vals

end Verif.Model
