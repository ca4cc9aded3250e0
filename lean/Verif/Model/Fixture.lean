import Verif.Model.FixtureStore
import Verif.Model.Manager

/-!
# The fixture server of `vanflow-tool` (`/repo/cmd/vanflow-tool/fixture.go`)

The functions behind the two HTTP routes.  JSON decoding of a record is a parameter (`unmarshal`): the theorems hold for any decoder.
HTTP plumbing and logging are left out.
-/
namespace Verif.Model
open Verif

/-- cmd/vanflow-tool/serve.go:21-37 `getRecordTypes`, by type name; the arguments are the flags -include-flow-records and
-include-log-records. -/
def getRecordTypes (flows logs : Bool) : List String :=
  ["SiteRecord", "LinkRecord", "RouterRecord", "ListenerRecord", "ConnectorRecord", "ProcessRecord"]
    ++ (if flows then ["FlowRecord"] else []) ++ (if logs then ["LogRecord"] else [])

/-- cmd/vanflow-tool/api.go:25-30 `PartialEntry`; `J` is the type of undecoded JSON values. -/
structure PartialEntry (J : Type) where
  md : Metadata
  typeMeta : TypeMeta
  record : J

/-- cmd/vanflow-tool/fixture.go:362-366: `recordTypeMap`. -/
def recordTypeMap : List String → GMap TypeMeta String → GMap TypeMeta String
  | [], m => m
  | t :: ts, m => recordTypeMap ts (m.set { apiVersion := "flow/v1", type := t } t)

/-- cmd/vanflow-tool/fixture.go:369-387: the loop over the uploaded entries. `unmarshal t j` is `json.Unmarshal(j, reflect.New(t))`. -/
def groupLoop {J : Type} (unmarshal : String → J → Option (Mem GoTime)) (types : GMap TypeMeta String) :
    List (PartialEntry J) → GMap SourceRef (List (Entry (GoRec GoTime))) → GMap SourceRef (List (Entry (GoRec GoTime)))
  | [], entries => entries
  | p :: ps, entries =>
    match types.get? p.typeMeta with
    | none => groupLoop unmarshal types ps entries
    | some rtype =>
      match unmarshal rtype p.record with
      | none => groupLoop unmarshal types ps entries
      | some mem =>
        let entry : Entry (GoRec GoTime) := { md := p.md, typeMeta := p.typeMeta, record := .pointer { tname := rtype, mem := mem } }
        groupLoop unmarshal types ps (entries.set p.md.source ((entries.get? p.md.source).getD [] ++ [entry]))

/-- cmd/vanflow-tool/fixture.go:361-389 `groupEntriesBySource`. -/
def groupEntriesBySource {J : Type} (unmarshal : String → J → Option (Mem GoTime)) (flows logs : Bool) (data : List (PartialEntry J)) :
    GMap SourceRef (List (Entry (GoRec GoTime))) :=
  groupLoop unmarshal (recordTypeMap (getRecordTypes flows logs) []) data []

/-- A store of the tool with some entries: cmd/vanflow-tool/fixture.go:173-174. -/
def fixtureStoreOf (entries : List (Entry (GoRec GoTime))) : Cache (GoRec GoTime) × Out (GoRec GoTime) Unit :=
  (newCache vanOps (fixtureConfig vanOps)).replace entries

/-- cmd/vanflow-tool/fixture.go:168-182: the stores handed to the goroutine of `Start`; `none` when a store refused its entries
(the request is answered with an error). A panic of a key function would end the request. -/
def sourceStoresLoop : GMap SourceRef (List (Entry (GoRec GoTime))) → GMap SourceRef (Cache (GoRec GoTime)) →
    Res (GMap SourceRef (Cache (GoRec GoTime)))
  | [], m => .ok m
  | (src, entries) :: rest, m =>
    if entries.length = 0 then sourceStoresLoop rest m
    else
      match fixtureStoreOf entries with
      | (c, { res := .ok _, .. }) => sourceStoresLoop rest (m.set src c)
      | (_, { res := .err e, .. }) => .err e
      | (_, { res := .panic e, .. }) => .panic e

/-- cmd/vanflow-tool/fixture.go:146-184 `ServeFixture` (POST): from the decoded request to the configuration sent to `Start`. -/
def serveFixture {J : Type} (unmarshal : String → J → Option (Mem GoTime)) (flows logs : Bool) (data : List (PartialEntry J)) :
    Res (GMap SourceRef (Cache (GoRec GoTime))) :=
  sourceStoresLoop (groupEntriesBySource unmarshal flows logs data) []

/-- cmd/vanflow-tool/fixture.go:104-129: a manager as configured for a source. -/
structure FixManager where
  source : SourceRef
  address : String
  direct : String
  altHeartbeats : Bool
  store : Cache (GoRec GoTime)

/-- cmd/vanflow-tool/fixture.go:115-128: the manager for a source. -/
def fixManagerOf (src : SourceRef) (stor : Cache (GoRec GoTime)) : FixManager :=
  { source := src, address := "mc/sfe." ++ src.name, direct := "sfe." ++ src.name, altHeartbeats := src.type = "CONTROLLER"
    store := stor }

/-- cmd/vanflow-tool/fixture.go:105-129: the managers of a configuration, by source name. -/
def fixManagers : GMap SourceRef (Cache (GoRec GoTime)) → GMap String FixManager → GMap String FixManager
  | [], m => m
  | (src, stor) :: rest, m => fixManagers rest (m.set src.name (fixManagerOf src stor))

/-! ## Flow replay -/

/-- Paths of the fields of `FlowRecord` (records.go:137-154). -/
def flowID : Path := [0, 0]
def flowStart : Path := [0, 1]
def flowEnd : Path := [0, 2]
def flowParent : Path := [1]
def flowCounterflow : Path := [2]
def flowSourceHost : Path := [3]
def flowSourcePort : Path := [4]
def flowOctets : Path := [5]
def flowLatency : Path := [6]
def flowTrace : Path := [8]

/-- The fields of `FlowRecord`. -/
def flowDecls : List FieldDecl :=
  match (vanTypes[6]? : Option (UInt32 × GoType)) with
  | some (_, .struct _ ds) => ds
  | _ => []

/-- The type assertion `x.(*vanflow.FlowRecord)` (fixture.go:207, 262, 263). A nil pointer passes it, but every later use dereferences it. -/
def asFlow : GoRec GoTime → Res (Mem GoTime)
  | .pointer r => if r.tname = "FlowRecord" then .ok r.mem else .panic "interface conversion"
  | .nilPointer t => if t = "FlowRecord" then .panic "nil pointer dereference" else .panic "interface conversion"
  | _ => .panic "interface conversion"

/-- A `*string` field; `none` is nil. -/
def ptrStr (v : FVal GoTime) : Option String :=
  match v with
  | .ptr (.str s) => some s
  | _ => none

/-- A `*uint64` field; `none` is nil. -/
def ptrU64 (v : FVal GoTime) : Option UInt64 :=
  match v with
  | .ptr (.u64 n) => some n
  | _ => none

/-- A string field. -/
def strField (v : FVal GoTime) : String :=
  match v with
  | .str s => s
  | _ => ""

/-- fixture.go:206-212: the loop over the entries of one store: `flowEntries` and `flowPairsIDs`. -/
def flowLoop : List (Entry (GoRec GoTime)) → GMap String (Entry (GoRec GoTime)) → GMap String String →
    Res (GMap String (Entry (GoRec GoTime)) × GMap String String)
  | [], es, ids => .ok (es, ids)
  | e :: rest, es, ids =>
    (asFlow e.record).bind fun m =>
      let id := strField (m flowID)
      match ptrStr (m flowCounterflow) with
      | some c => flowLoop rest (es.set id e) (if c ≠ "" then ids.set id c else ids)
      | none => flowLoop rest (es.set id e) ids

/-- fixture.go:200-213: the loop over the stores of the managers; a failing query contributes no entries (the loop goes on,
fixture.go:202-205). -/
def flowStores : List (Cache (GoRec GoTime)) → GMap String (Entry (GoRec GoTime)) → GMap String String →
    Res (GMap String (Entry (GoRec GoTime)) × GMap String String)
  | [], es, ids => .ok (es, ids)
  | c :: rest, es, ids =>
    let exemplar : Entry (GoRec GoTime) := { md := Metadata.zero, typeMeta := ⟨"flow/v1", "FlowRecord"⟩, record := .nil }
    match c.index "ByType" exemplar none 0 with
    | .ok set => (flowLoop set.entries es ids).bind fun r => flowStores rest r.1 r.2
    | .err _ => flowStores rest es ids
    | .panic m => .panic m

/-- fixture.go:186-189 `flowPair`. -/
structure FlowPair where
  server : Entry (GoRec GoTime)
  client : Entry (GoRec GoTime)

/-- fixture.go:214-220: the pairs; a missing map key reads as the zero Entry. -/
def flowPairs (es : GMap String (Entry (GoRec GoTime))) : GMap String String → List FlowPair
  | [] => []
  | (srv, cli) :: rest => { server := (es.get? srv).getD default, client := (es.get? cli).getD default } :: flowPairs es rest

/-- fixture.go:191-220, 242-252 `ServeFlows`: the pairs in the answer, for the order `stores` in which `range` goes through the managers and for an order of the pairs found.
Both orders are Go's choice. -/
def listFlows (stores : List (Cache (GoRec GoTime))) (order : GMap String String → GMap String String) : Res (List FlowPair) :=
  (flowStores stores [] []).bind fun r => .ok (flowPairs r.1 (order r.2))

/-- What one run of `fakeFlow` gets from outside: the two random ids and the times read. -/
structure FakeEnv where
  srvID : String
  cliID : String
  start : GoTime
  endAt : GoTime

/-- The two ids of the i-th replayed flow (fixture.go:296-297). -/
def fakeId (base : String) (i : Nat) : String := base ++ ":" ++ toString i

/-- fixture.go:297-305: the initial server flow. -/
def fakeServer (env : FakeEnv) (s : Mem GoTime) (increments : Nat) (i : Nat) : Mem GoTime :=
  let lat := match ptrU64 (s flowLatency) with
    | some l => l / UInt64.ofNat increments
    | none => 0
  ((((((((zeroMem vanEnv flowDecls).set flowID (.str (fakeId env.srvID i))).set flowStart (.ptr (.custom env.start))).set
    flowCounterflow (.ptr (.str (fakeId env.cliID i)))).set flowParent (s flowParent)).set flowSourceHost (s flowSourceHost)).set
    flowSourcePort (s flowSourcePort)).set flowOctets (.ptr (.u64 ((ptrU64 (s flowOctets)).getD 0)))).set
    flowLatency (.ptr (.u64 lat)) |>.set flowTrace (s flowTrace)

/-- fixture.go:306-312: the initial client flow. -/
def fakeClient (env : FakeEnv) (c : Mem GoTime) (increments : Nat) (i : Nat) : Mem GoTime :=
  let lat := match ptrU64 (c flowLatency) with
    | some l => l / UInt64.ofNat increments
    | none => 0
  ((((((((zeroMem vanEnv flowDecls).set flowID (.str (fakeId env.cliID i))).set flowStart (.ptr (.custom env.start)))).set
    flowParent (c flowParent)).set flowSourceHost (c flowSourceHost)).set flowSourcePort (c flowSourcePort)).set
    flowOctets (.ptr (.u64 ((ptrU64 (c flowOctets)).getD 0)))).set flowLatency (.ptr (.u64 lat))

/-- fixture.go:328-338 and 341-351: one further update of the flow with index `i` (the inner `i`). -/
def fakeNext (endTime : Option GoTime) (i : Nat) (prev : Mem GoTime) : Mem GoTime :=
  let oct := (ptrU64 (prev flowOctets)).getD 0
  let lat := (ptrU64 (prev flowLatency)).getD 0
  let d := UInt64.ofNat (i + 1)
  (((prev.set flowOctets (.ptr (.u64 (oct + oct / d)))).set flowLatency (.ptr (.u64 (lat + lat / d)))).set flowEnd
    (match endTime with
    | some t => .ptr (.custom t)
    | none => .nilp))

/-- A pointer to a flow record. -/
def flowRec (m : Mem GoTime) : GoRec GoTime := .pointer { tname := "FlowRecord", mem := m }

/-- fixture.go:327-352: one round of the outer loop for one side: the new flows and the updates. -/
def fakeRound (endTime : Option GoTime) (fl : List (Mem GoTime)) : List (Mem GoTime) × List RecordUpdate :=
  (fl.mapIdx (fakeNext endTime), fl.mapIdx fun i prev => { prev := flowRec prev, curr := flowRec (fakeNext endTime i prev) })

/-- Which manager an update goes to. -/
inductive Side where
  | server | client
deriving DecidableEq, Repr

/-- fixture.go:321-353: the outer loop; `n` rounds are left, the last one has the end time. -/
def fakeRounds (env : FakeEnv) : Nat → List (Mem GoTime) → List (Mem GoTime) → List (Side × RecordUpdate)
  | 0, _, _ => []
  | n + 1, srv, cli =>
    let endTime := if n = 0 then some env.endAt else none
    (fakeRound endTime srv).2.map (fun u => (.server, u)) ++ (fakeRound endTime cli).2.map (fun u => (.client, u))
      ++ fakeRounds env n (fakeRound endTime srv).1 (fakeRound endTime cli).1

/-- The largest length of a slice of pointers: `runtime.makeslice` panics where the size exceeds `maxAlloc`, 2⁴⁸ on 64-bit Linux.  Running out of memory before that is not modelled. -/
def maxPointers : Int := 2 ^ 45

/-- fixture.go:255-359 `fakeFlow`: the updates published, in order, if it is never blocked.  `make` with a negative or too large length panics
(fixture.go:275-276); `PublishUpdate` on a nil manager panics (manager.go:70), modelled by `srvMgr`, `cliMgr` telling whether the managers exist. -/
def fakeFlow (env : FakeEnv) (og : FlowPair) (srvMgr cliMgr : Bool) (flows : Int) (increments : Nat) : Res (List (Side × RecordUpdate)) :=
  (asFlow og.server.record).bind fun s =>
    (asFlow og.client.record).bind fun c =>
      if flows < 0 ∨ maxPointers < flows then .panic "makeslice: len out of range"
      else
        let srv := (List.range flows.toNat).map (fakeServer env s increments)
        let cli := (List.range flows.toNat).map (fakeClient env c increments)
        if flows > 0 ∧ ¬ (srvMgr ∧ cliMgr) then .panic "nil pointer dereference"
        else .ok (srv.map (fun m => (.server, { curr := flowRec m })) ++ cli.map (fun m => (.client, { curr := flowRec m }))
          ++ fakeRounds env increments srv cli)

/-- fixture.go:191-243 `ServeFlows` (POST with a decoded request): the outcome of the handler, or the outcomes of the goroutines it starts.
A panic in any of these goroutines ends the process. `env` gives each goroutine what it reads from outside; `stores` and `order` are the orders in which `range` goes
through the managers and the pairs. -/
def serveFlows (stores : List (Cache (GoRec GoTime))) (order : GMap String String → GMap String String) (managers : GMap String FixManager) (flows : Int) (env : Nat → FakeEnv) :
    Res (List (Res (List (Side × RecordUpdate)))) :=
  (flowStores stores [] []).bind fun r =>
    .ok ((flowPairs r.1 (order r.2)).mapIdx fun i pair =>
      fakeFlow (env i) pair (managers.get? pair.server.md.source.name).isSome (managers.get? pair.client.md.source.name).isSome flows 4)

end Verif.Model
