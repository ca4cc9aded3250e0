import Verif.Model.IndexedMap
import Verif.Model.Token
import Verif.Model.Messages

/-!
# Model of the record store (`/repo/store/store.go`, `cache.go`, `patcher.go`, `etag.go`, `dispatch.go`)

The store is modelled over an arbitrary type `R` of records with the operations the code uses on them (`RecOps`);
`vanOps` is the instance for vanflow records.  `time.Now()` is an input of the operations that call it.
Simplification: records and annotation maps are values (no sharing with the caller); sharing is modelled
separately in `Verif.Model.Alias`.
-/
namespace Verif.Model
open Verif

/-- base.go:11-14 `TypeMeta`. -/
structure TypeMeta where
  apiVersion : String
  type : String
deriving DecidableEq, Repr, Inhabited

/-- base.go:16-18 `TypeMeta.String`. -/
def TypeMeta.str (m : TypeMeta) : String := m.apiVersion ++ "/" ++ m.type

/-- store/store.go:25-29 `SourceRef`. -/
structure SourceRef where
  apiVersion : String
  type : String
  name : String
deriving DecidableEq, Repr, Inhabited

/-- store/store.go:31-33 `SourceRef.String`. -/
def SourceRef.str (r : SourceRef) : String := r.apiVersion ++ "." ++ r.type ++ "." ++ r.name

/-- store/store.go:15-22 `Metadata`; a nil annotations map reads like an empty one. -/
structure Metadata where
  source : SourceRef
  updatedAt : GoTime
  annotations : GMap String String
deriving DecidableEq, Repr

/-- The zero `Metadata`. -/
def Metadata.zero : Metadata := { source := ⟨"", "", ""⟩, updatedAt := GoTime.zero, annotations := [] }

/-- store/store.go:37-41 `Entry`. -/
structure Entry (R : Type) where
  md : Metadata
  typeMeta : TypeMeta
  record : R
deriving DecidableEq, Repr

/-- The zero `Entry`; `default : R` is the nil record. -/
instance {R : Type} [Inhabited R] : Inhabited (Entry R) := ⟨{ md := Metadata.zero, typeMeta := ⟨"", ""⟩, record := default }⟩

/-- The nil `vanflow.Record` interface. -/
instance {X : Type} : Inhabited (GoRec X) := ⟨.nil⟩

/-- `Entry{Record: r}` (store/cache.go:79): every other field is zero. -/
def Entry.ofRecord {R : Type} (r : R) : Entry R := { md := Metadata.zero, typeMeta := ⟨"", ""⟩, record := r }

/-- `obj.Meta.UpdatedAt = now` (store/cache.go:181 and 197, store/patcher.go:50). -/
def Entry.stamp {R : Type} (e : Entry R) (now : GoTime) : Entry R := { e with md := { e.md with updatedAt := now } }

/-- What the store does with records: the `vanflow.Record` methods (base.go:20-23), `encoding.Encode`, `encoding.Decode`
of a non-nil attribute set, and the type assertion to `vanflow.Record`. -/
structure RecOps (R : Type) where
  identity : R → Res String
  typeMeta : R → Res TypeMeta
  encode : R → Res Attrs
  decode : Attrs → Res R
  isRecord : R → Bool

/-- `GetTypeMeta` of the built-in kinds (records.go:38-43 and so on); method calls on a nil interface or nil pointer panic. -/
def vanTypeMeta : GoRec GoTime → Res TypeMeta
  | .nil | .nilPointer _ => .panic "nil pointer dereference"
  | .value r | .pointer r => .ok { apiVersion := "flow/v1", type := r.tname }

/-- `Identity` of the built-in kinds (base.go:48-50). -/
def vanIdentity : GoRec GoTime → Res String
  | .nil | .nilPointer _ => .panic "nil pointer dereference"
  | .value r | .pointer r => .ok (recIdentity r)

/-- The record operations for vanflow records. -/
def vanOps : RecOps (GoRec GoTime) :=
  { identity := vanIdentity
    typeMeta := vanTypeMeta
    encode := encode vanEnv vanRegistry
    decode := fun a => decode vanEnv vanRegistry (some a)
    isRecord := isRecord }

/-- store/patcher.go:40-46: the merge loop; the flag is `changed`. -/
def mergeLoop : Attrs → Attrs → Bool → Bool × Attrs
  | [], curr, changed => (changed, curr)
  | (nK, nV) :: rest, curr, changed =>
    match curr.get? nK with
    | some cV => if cV ≠ nV then mergeLoop rest (curr.set nK nV) true else mergeLoop rest curr changed
    | none => mergeLoop rest (curr.set nK nV) true

/-- store/patcher.go:19-54 `recordPatcher.Patch`. The assertion at patcher.go:52 runs before the decode error is
looked at, so a failing decode (nil `rawOut`) panics. -/
def recordPatch {R : Type} (ops : RecOps R) (source : SourceRef) (r : R) (now : GoTime) : Option (Entry R) → POut (Entry R)
  | none =>
    match ops.typeMeta r with
    | .ok tm => .ok { record := r, md := { source := source, updatedAt := now, annotations := [] }, typeMeta := tm }
    | .err e => .err e
    | .panic m => .panic m
  | some entry =>
    match ops.encode entry.record with
    | .err _ => .err "error encoding current record for comparison"
    | .panic m => .panic m
    | .ok currAttrs =>
      match ops.encode r with
      | .err _ => .err "error encoding incoming record for comparison"
      | .panic m => .panic m
      | .ok nextAttrs =>
        match mergeLoop nextAttrs currAttrs false with
        | (false, _) => .noChange
        | (true, merged) =>
          match ops.decode merged with
          | .ok raw =>
            if ops.isRecord raw then .ok { entry.stamp now with record := raw }
            else .panic "interface conversion: not a vanflow.Record"
          | .err _ => .panic "interface conversion: interface is nil, not vanflow.Record"
          | .panic m => .panic m

/-- store/cache.go:47-51 `EventHandlerFuncs`: which handlers are non-nil. -/
structure Handlers where
  onAdd : Bool
  onChange : Bool
  onDelete : Bool
deriving DecidableEq, Repr

/-- A call of an event handler. -/
inductive Event (R : Type) where
  | add (e : Entry R)
  | change (prev curr : Entry R)
  | delete (e : Entry R)
deriving DecidableEq, Repr

/-- store/cache.go:25 `KeyFunc`; a key function may return an error or panic (on a nil record). -/
abbrev KeyFunc (R : Type) := Entry R → Res String

/-- store/cache.go:32-38 `objectCache`. -/
structure Cache (R : Type) where
  storage : SIM (Entry R)
  keyFunc : KeyFunc R
  handlers : Handlers

/-- store/cache.go:247-249 `keyByRecordID`. -/
def keyByRecordID {R : Type} (ops : RecOps R) : KeyFunc R := fun e => ops.identity e.record

/-- store/cache.go:16-21 -/
def indexBySource : String := "source"
/-- store/cache.go:17 -/
def indexBySite : String := "site"
/-- store/cache.go:19 -/
def siteAnnotationKey : String := "skupper.io/flow/site-id"
/-- store/cache.go:20 -/
def siteUnknownValue : String := "unknown"

/-- store/cache.go:251-264 `defaultIndexers`. -/
def defaultIndexers {R : Type} : GMap String (Indexer (Entry R)) :=
  [ (indexBySource, fun e => [e.md.source.str]),
    (indexBySite, fun e => [(e.md.annotations.get? siteAnnotationKey).getD siteUnknownValue]) ]

/-- store/cache.go:40-45 `CacheConfig`; `none` is nil. -/
structure CacheConfig (R : Type) where
  key : Option (KeyFunc R) := none
  indexers : Option (GMap String (Indexer (Entry R))) := none
  handlers : Handlers := ⟨false, false, false⟩

/-- store/cache.go:53-76 `NewDefaultCachingStore`. -/
def newCache {R : Type} (ops : RecOps R) (cfg : CacheConfig R) : Cache R :=
  { storage := SIM.new (cfg.indexers.getD defaultIndexers)
    keyFunc := cfg.key.getD (keyByRecordID ops)
    handlers := cfg.handlers }

/-- The event for a delta (store/cache.go:88-92 and 214-218). -/
def deltaEvents {R : Type} (h : Handlers) (d : Delta (Entry R)) : List (Event R) :=
  match d.prev with
  | some p => if h.onChange then [.change p d.next] else []
  | none => if h.onAdd then [.add d.next] else []

/-- What a store operation returns and which handlers it calls. -/
structure Out (R : Type) (α : Type) where
  res : Res α
  events : List (Event R) := []

/-- An operation that failed before touching the storage. -/
def Out.fail {R α β : Type} (r : Res α) : Out R β :=
  { res := match r with
    | .ok _ => .err ""
    | .err e => .err e
    | .panic m => .panic m }

/-- store/cache.go:78-94 `Accumulate`.  On an error other than `errNoChange` the delta is zero, so OnAdd is called
with a zero Entry (cache.go:90-91). -/
def Cache.accumulate {R : Type} [Inhabited R] (ops : RecOps R) (c : Cache R) (source : SourceRef) (r : R) (now : GoTime) :
    Cache R × Out R Unit :=
  match c.keyFunc (Entry.ofRecord r) with
  | .ok key =>
    match c.storage.patch key (recordPatch ops source r now) [] with
    | (s, .noChange) => ({ c with storage := s }, { res := .ok () })
    | (s, .ok d) => ({ c with storage := s }, { res := .ok (), events := deltaEvents c.handlers d })
    | (s, .err e) =>
      ({ c with storage := s }, { res := .err e, events := deltaEvents c.handlers { prev := none, next := default } })
    | (s, .panic m) => ({ c with storage := s }, { res := .panic m })
  | f => (c, Out.fail f)

/-- store/store.go:44-49 `Single`. -/
structure Single (R : Type) where
  entry : Entry R
  found : Bool
  etag : String

/-- store/etag.go:23-32 `getETag`. -/
def getETag {R : Type} (cc : VC (Entry R)) : String := encodeETag cc.version cc.resource.md.updatedAt.sec

/-- store/cache.go:96-108 `Get`. -/
def Cache.get {R : Type} [Inhabited R] (c : Cache R) (exemplar : Entry R) : Res (Single R) :=
  (c.keyFunc exemplar).bind fun key =>
    match c.storage.get key with
    | some cc => .ok { entry := cc.resource, found := true, etag := getETag cc }
    | none => .ok { entry := default, found := false, etag := "" }

/-- store/store.go:52-56 `Set`. -/
structure SetRes (R : Type) where
  entries : List (Entry R)
  cont : String

/-- store/store.go:58-66 `Selector`. Ordering 1 is `Descending` (store.go:70-73). -/
structure Selector where
  offset : Int := 0
  limit : Int := 0
  cont : String := ""
  ordering : Int := 0
deriving DecidableEq, Repr

/-- The sort key of an entry: the error of the key function is dropped (store/cache.go:113-114).  Simplification: a key function that fails returns the empty
key beside its error, as `keyByRecordID` (store/cache.go:247-249) does. -/
def sortKey {R : Type} (kf : KeyFunc R) (e : Entry R) : String :=
  match kf e with
  | .ok k => k
  | _ => ""

/-- store/cache.go:112-120: the comparison passed to `sort.Slice` (`strings.Compare` of the keys). -/
def selLess {R : Type} (kf : KeyFunc R) (ordering : Int) (a b : Entry R) : Bool :=
  if ordering = 1 then !(decide (sortKey kf a < sortKey kf b))
  else decide (sortKey kf a < sortKey kf b)

/-- Insertion of `x` into a prefix given in reverse order: move left while `less x y`. -/
def insertRev {α : Type} (less : α → α → Bool) (x : α) : List α → List α
  | [] => [x]
  | y :: ys => if less x y then y :: insertRev less x ys else x :: y :: ys

/-- `sort.Slice`.  Simplification: always the insertion sort Go uses for at most 12 elements; with distinct keys every sorting
algorithm gives the same result (`Verif.Proofs.sorted_unique`). -/
def sortSlice {α : Type} (less : α → α → Bool) (l : List α) : List α :=
  (l.foldl (fun acc x => insertRev less x acc) []).reverse

/-- store/cache.go:110-141 `applySelector`; `nonce` is the time in the continue token. -/
def applySelector {R : Type} (kf : KeyFunc R) (entries : List (Entry R)) (sel : Selector) (nonce : Int) : Res (SetRes R) :=
  if 2 ≤ entries.length ∧ entries.any (fun e => (kf e).isPanic) then .panic "key function panics"
  else
    let sorted := sortSlice (selLess kf sel.ordering) entries
    let offset := if sel.cont ≠ "" then decodeContinue sel.cont else .ok sel.offset
    offset.bind fun offset =>
      if offset < 0 then .panic "slice bounds out of range"
      else
        let window := if offset ≥ (sorted.length : Int) then [] else sorted.drop offset.toNat
        if sel.limit > 0 ∧ (window.length : Int) > sel.limit then
          .ok { entries := window.take sel.limit.toNat, cont := encodeContinue nonce (offset + sel.limit) }
        else .ok { entries := window, cont := "" }

/-- store/cache.go:143-154 `List`; `none` is a nil selector. -/
def Cache.list {R : Type} (c : Cache R) (opts : Option Selector) (nonce : Int) : Res (SetRes R) :=
  let all := c.storage.list.map VC.resource
  match opts with
  | some sel => applySelector c.keyFunc all sel nonce
  | none => .ok { entries := all, cont := "" }

/-- store/cache.go:156-158 `IndexValues`. -/
def Cache.indexValues {R : Type} (c : Cache R) (idx : String) : Res (List String) := c.storage.indexValues idx

/-- store/cache.go:160-174 `Index`. -/
def Cache.index {R : Type} [Inhabited R] (c : Cache R) (idx : String) (obj : Entry R) (opts : Option Selector) (nonce : Int) :
    Res (SetRes R) :=
  (c.storage.index idx obj).bind fun all =>
    let all := all.map VC.resource
    match opts with
    | some sel => applySelector c.keyFunc all sel nonce
    | none => .ok { entries := all, cont := "" }

/-- store/cache.go:176-190 `Add`. -/
def Cache.add {R : Type} (c : Cache R) (obj : Entry R) (now : GoTime) : Cache R × Out R Unit :=
  match c.keyFunc obj with
  | .ok key =>
    match c.storage.update key (obj.stamp now) [whenNotExists] with
    | (s, .ok d) => ({ c with storage := s }, { res := .ok (), events := if c.handlers.onAdd then [.add d.next] else [] })
    | (s, .err e) => ({ c with storage := s }, { res := .err e })
    | (s, .panic m) => ({ c with storage := s }, { res := .panic m })
  | f => (c, Out.fail f)

/-- store/etag.go:51-65 `getConditional`; `none` is a context without `WithIfMatch`. -/
def getConditional (ifMatch : Option String) : Res (List Cond) :=
  match ifMatch with
  | none => .ok []
  | some etag => (decodeETag etag).map fun token => [whenVersionMatches token.version]

/-- store/cache.go:192-220 `Update`. -/
def Cache.update {R : Type} (c : Cache R) (obj : Entry R) (ifMatch : Option String) (now : GoTime) : Cache R × Out R Unit :=
  match c.keyFunc obj with
  | .ok key =>
    match getConditional ifMatch with
    | .ok conds =>
      match c.storage.update key (obj.stamp now) conds with
      | (s, .ok d) => ({ c with storage := s }, { res := .ok (), events := deltaEvents c.handlers d })
      | (s, .err e) => ({ c with storage := s }, { res := .err e })
      | (s, .panic m) => ({ c with storage := s }, { res := .panic m })
    | f => (c, Out.fail f)
  | f => (c, Out.fail f)

/-- store/cache.go:222-232 `Delete`. -/
def Cache.delete {R : Type} (c : Cache R) (obj : Entry R) : Cache R × Out R Unit :=
  match c.keyFunc obj with
  | .ok key =>
    match c.storage.delete key with
    | (s, some d) => ({ c with storage := s }, { res := .ok (), events := if c.handlers.onDelete then [.delete d.resource] else [] })
    | (s, none) => ({ c with storage := s }, { res := .ok () })
  | f => (c, Out.fail f)

/-- store/cache.go:235-242: the loop of `Replace` collecting the items by key. -/
def collectItems {R : Type} (kf : KeyFunc R) : List (Entry R) → GMap String (Entry R) → Res (GMap String (Entry R))
  | [], items => .ok items
  | e :: es, items => (kf e).bind fun key => collectItems kf es (items.set key e)

/-- store/cache.go:234-245 `Replace`. -/
def Cache.replace {R : Type} (c : Cache R) (entries : List (Entry R)) : Cache R × Out R Unit :=
  match collectItems c.keyFunc entries [] with
  | .ok items => ({ c with storage := c.storage.replace items }, { res := .ok () })
  | f => (c, Out.fail f)

/-! ## Operation sequences -/

/-- The calls of `store.Interface` (store/store.go:77-95). -/
inductive Op (R : Type) where
  | add (e : Entry R) (now : GoTime)
  | update (e : Entry R) (ifMatch : Option String) (now : GoTime)
  | delete (e : Entry R)
  | replace (es : List (Entry R))
  | accumulate (source : SourceRef) (r : R) (now : GoTime)
  | get (e : Entry R)
  | list (sel : Option Selector) (nonce : Int)
  | index (name : String) (e : Entry R) (sel : Option Selector) (nonce : Int)
  | indexValues (name : String)

/-- One call: the new store, how the call ended (value dropped), and the events. -/
def Cache.step {R : Type} [Inhabited R] (ops : RecOps R) (c : Cache R) : Op R → Cache R × Out R Unit
  | .add e now => c.add e now
  | .update e m now => c.update e m now
  | .delete e => c.delete e
  | .replace es => c.replace es
  | .accumulate s r now => c.accumulate ops s r now
  | .get e => (c, { res := (c.get e).map fun _ => () })
  | .list sel n => (c, { res := (c.list sel n).map fun _ => () })
  | .index i e sel n => (c, { res := (c.index i e sel n).map fun _ => () })
  | .indexValues i => (c, { res := (c.indexValues i).map fun _ => () })

/-- A sequential history: the state after the calls, and each call with its outcome. -/
def Cache.run {R : Type} [Inhabited R] (ops : RecOps R) : Cache R → List (Op R) → Cache R × List (Op R × Out R Unit)
  | c, [] => (c, [])
  | c, op :: rest =>
    let (c', o) := c.step ops op
    let (c'', h) := Cache.run ops c' rest
    (c'', (op, o) :: h)

/-! ## Dispatch (`/repo/store/dispatch.go`) -/

/-- The Go maps of the registry and the dispatchers, by reference, and the registry's own map (store/dispatch.go:14-16
`DispatchRegistry`; `none` is the nil map).  Stores are referred to by a number. -/
structure RegWorld where
  heap : List (GMap String Nat) := []
  reg : Option Nat := none

/-- Reading through a map reference; a nil map reads as empty. -/
def RegWorld.read (w : RegWorld) (ref : Option Nat) : GMap String Nat :=
  match ref with
  | none => []
  | some i => (w.heap[i]?).getD []

/-- store/dispatch.go:21-26 `RegisterStore`, given the type meta of the record. -/
def RegWorld.registerStore (w : RegWorld) (tm : TypeMeta) (stor : Nat) : RegWorld :=
  match w.reg with
  | none => { heap := w.heap ++ [GMap.set [] tm.str stor], reg := some w.heap.length }
  | some i => { w with heap := w.heap.set i ((w.read (some i)).set tm.str stor) }

/-- store/dispatch.go:42-45 `Dispatcher`; `accumulators` is a map reference. -/
structure Dispatcher where
  source : SourceRef
  accumulators : Nat

/-- store/dispatch.go:31-33: copy of the registry. -/
def copyReg : GMap String Nat → GMap String Nat → GMap String Nat
  | [], acc => acc
  | (k, v) :: rest, acc => copyReg rest (acc.set k v)

/-- store/dispatch.go:29-38 `NewDispatcher`. -/
def RegWorld.newDispatcher (w : RegWorld) (source : SourceRef) : RegWorld × Dispatcher :=
  ({ w with heap := w.heap ++ [copyReg (w.read w.reg) []] }, { source := source, accumulators := w.heap.length })

/-- A set of stores, by number. -/
abbrev Stores (R : Type) := Nat → Cache R

/-- store/dispatch.go:48-61 `Dispatch`: the loop over the records, each with the time at which it is accumulated.  The result is the
new stores, and the panic that ended the call, if any. -/
def dispatch {R : Type} [Inhabited R] (ops : RecOps R) (accumulators : GMap String Nat) (source : SourceRef) :
    List (R × GoTime) → Stores R → Stores R × Option String
  | [], s => (s, none)
  | (r, now) :: rs, s =>
    match ops.typeMeta r with
    | .panic m => (s, some m)
    | .err m => (s, some m)
    | .ok tm =>
      match accumulators.get? tm.str with
      | none => dispatch ops accumulators source rs s
      | some i =>
        let (c, o) := (s i).accumulate ops source r now
        let s' : Stores R := fun j => if j = i then c else s j
        match o.res with
        | .panic m => (s', some m)
        | _ => dispatch ops accumulators source rs s'

/-- store/dispatch.go:48 `Dispatcher.Dispatch`. -/
def RegWorld.dispatch {R : Type} [Inhabited R] (w : RegWorld) (ops : RecOps R) (d : Dispatcher) (msg : List (R × GoTime)) (s : Stores R) :
    Stores R × Option String :=
  Model.dispatch ops (w.read (some d.accumulators)) d.source msg s

end Verif.Model
