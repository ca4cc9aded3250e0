import Verif.Basic.Res
import Verif.Basic.GMap

/-!
# Model of the store's indexed map (`/repo/store/internal/cache.go`, `conditional.go`, `index.go`)

Every method of `SyncIndexedMap` holds the one `RWMutex` of the map for its whole body (writers exclusively),
so each method is one atomic step on the state below.
-/
namespace Verif.Model
open Verif

/-- store/internal/cache.go:8-11 `VersionContainer`.  Simplification: the version is an unbounded
integer instead of an int64 (2^63 writes to one key are not reached). -/
structure VC (T : Type) where
  resource : T
  version : Int
deriving DecidableEq, Repr

/-- The Go zero value of a `VersionContainer`, read for an absent key; `default` is the zero value of `T`. -/
def VC.zero {T : Type} [Inhabited T] : VC T := { resource := default, version := 0 }

/-- store/internal/cache.go:13-16 `Delta`. -/
structure Delta (T : Type) where
  prev : Option T
  next : T
deriving DecidableEq, Repr

/-- store/internal/index.go:3 `Indexer`. -/
abbrev Indexer (T : Type) := T → List String

/-- store/internal/index.go:5 `KeySet`, a Go set of strings as a list. -/
abbrev KeySet := List String

/-- store/internal/index.go:4 `Index`. -/
abbrev Index := GMap String KeySet

/-- store/internal/index.go:7-9 `KeySet.Add`. -/
def KeySet.add (k : KeySet) (s : String) : KeySet := if s ∈ k then k else k ++ [s]

/-- store/internal/index.go:11-17 `KeySet.Remove`. -/
def KeySet.remove (k : KeySet) (s : String) : KeySet := k.filter (fun x => x ≠ s)

/-- store/internal/cache.go:24-30 `SyncIndexedMap`, without the mutex. -/
structure SIM (T : Type) where
  items : GMap String (VC T)
  indexers : GMap String (Indexer T)
  indicies : GMap String Index

/-- store/internal/cache.go:32-38 `NewSyncIndexedMap`. -/
def SIM.new {T : Type} (indexers : GMap String (Indexer T)) : SIM T :=
  { items := [], indexers := indexers, indicies := [] }

/-- store/internal/conditional.go:10 `Cond`.  Simplification: a condition sees only the version (both
conditions of conditional.go look at nothing else). -/
abbrev Cond := Int → Option String

/-- store/internal/conditional.go:12-19 `WhenVersionMatches`. -/
def whenVersionMatches (target : Int) : Cond := fun v => if v ≠ target then some "version mismatch" else none

/-- store/internal/conditional.go:21-28 `WhenNotExists`. -/
def whenNotExists : Cond := fun v => if v ≠ 0 then some "resource exists" else none

/-- The first failing condition (loops at store/internal/cache.go:45-49 and 73-77). -/
def firstFail (v : Int) : List Cond → Option String
  | [] => none
  | c :: cs =>
    match c v with
    | some e => some e
    | none => firstFail v cs

/-- Inner loop of `unindex`, store/internal/cache.go:209-217. -/
def unindexVals (key : String) : List String → Index → Index
  | [], index => index
  | v :: vs, index =>
    match index.get? v with
    | none => unindexVals key vs index
    | some set =>
      let set' := KeySet.remove set key
      if set'.length = 0 then unindexVals key vs (index.del v)
      else unindexVals key vs (index.set v set')

/-- store/internal/cache.go:201-219 `unindex`, over the indexers still to visit. -/
def unindexAll {T : Type} (key : String) (obj : T) : GMap String (Indexer T) → GMap String Index → GMap String Index
  | [], ix => ix
  | (name, indexer) :: rest, ix =>
    match ix.get? name with
    | none => unindexAll key obj rest ix
    | some index => unindexAll key obj rest (ix.set name (unindexVals key (indexer obj) index))

/-- Inner loop of `reindex`, store/internal/cache.go:189-196. -/
def reindexVals (key : String) : List String → Index → Index
  | [], index => index
  | v :: vs, index =>
    let set := (index.get? v).getD []
    reindexVals key vs (index.set v (KeySet.add set key))

/-- Loop of `reindex`, store/internal/cache.go:181-197. -/
def reindexAll {T : Type} (key : String) (curr : T) : GMap String (Indexer T) → GMap String Index → GMap String Index
  | [], ix => ix
  | (name, indexer) :: rest, ix =>
    let index := (ix.get? name).getD []
    reindexAll key curr rest (ix.set name (reindexVals key (indexer curr) index))

/-- store/internal/cache.go:177-199 `reindex`. -/
def SIM.reindex {T : Type} (m : SIM T) (key : String) (prev : Option T) (curr : T) : SIM T :=
  let ix := match prev with
    | some p => unindexAll key p m.indexers m.indicies
    | none => m.indicies
  { m with indicies := reindexAll key curr m.indexers ix }

/-- Result of a patch: a new value, `errNoChange`, another error, or a panic inside the patcher. -/
inductive POut (α : Type) where
  | ok (a : α)
  | noChange
  | err (e : String)
  | panic (m : String)
deriving DecidableEq, Repr

/-- Common tail of `Patch` and `Update`: store the object with the next version and reindex
(store/internal/cache.go:59-65 and 83-89). -/
def SIM.put {T : Type} (m : SIM T) (key : String) (obj : T) : SIM T × Delta T :=
  let cc := m.items.get? key
  let version := match cc with
    | some c => c.version
    | none => 0
  let prev := cc.map VC.resource
  let m' : SIM T := { m with items := m.items.set key { resource := obj, version := version + 1 } }
  (m'.reindex key prev obj, { prev := prev, next := obj })

/-- The version of a key, 0 when absent (the zero `VersionContainer`). -/
def SIM.versionOf {T : Type} (m : SIM T) (key : String) : Int :=
  match m.items.get? key with
  | some c => c.version
  | none => 0

/-- store/internal/cache.go:40-66 `Patch`. A panic in the patcher unwinds through the deferred unlock
and leaves the state as it was. -/
def SIM.patch {T : Type} (m : SIM T) (key : String) (patcher : Option T → POut T) (cond : List Cond) :
    SIM T × POut (Delta T) :=
  match firstFail (m.versionOf key) cond with
  | some e => (m, .err ("patch condition error: " ++ e))
  | none =>
    match patcher ((m.items.get? key).map VC.resource) with
    | .ok obj => let (m', d) := m.put key obj; (m', .ok d)
    | .noChange => (m, .noChange)
    | .err e => (m, .err ("patch apply error: " ++ e))
    | .panic p => (m, .panic p)

/-- store/internal/cache.go:68-90 `Update`. -/
def SIM.update {T : Type} (m : SIM T) (key : String) (obj : T) (cond : List Cond) : SIM T × Res (Delta T) :=
  match firstFail (m.versionOf key) cond with
  | some e => (m, .err ("update condition error: " ++ e))
  | none => let (m', d) := m.put key obj; (m', .ok d)

/-- store/internal/cache.go:92-101 `Delete`. -/
def SIM.delete {T : Type} (m : SIM T) (key : String) : SIM T × Option (VC T) :=
  match m.items.get? key with
  | some d => ({ m with items := m.items.del key, indicies := unindexAll key d.resource m.indexers m.indicies }, some d)
  | none => (m, none)

/-- store/internal/cache.go:103-108 `Get`. -/
def SIM.get {T : Type} (m : SIM T) (key : String) : Option (VC T) := m.items.get? key

/-- Loop of `Replace` building the new items, store/internal/cache.go:113-119. -/
def replaceItems {T : Type} (old : SIM T) : GMap String T → GMap String (VC T)
  | [] => []
  | (k, v) :: rest => (k, { resource := v, version := old.versionOf k + 1 }) :: replaceItems old rest

/-- Loop of `Replace` rebuilding the indexes, store/internal/cache.go:122-125. -/
def reindexEach {T : Type} (indexers : GMap String (Indexer T)) : GMap String T → GMap String Index → GMap String Index
  | [], ix => ix
  | (k, v) :: rest, ix => reindexEach indexers rest (reindexAll k v indexers ix)

/-- store/internal/cache.go:110-126 `Replace`. -/
def SIM.replace {T : Type} (m : SIM T) (items : GMap String T) : SIM T :=
  { m with items := replaceItems m items, indicies := reindexEach m.indexers items [] }

/-- store/internal/cache.go:128-136 `List`; the order is the (arbitrary) map order. -/
def SIM.list {T : Type} (m : SIM T) : List (VC T) := m.items.vals

/-- store/internal/cache.go:138-151 `IndexValues`. -/
def SIM.indexValues {T : Type} (m : SIM T) (name : String) : Res (List String) :=
  match m.indexers.get? name with
  | none => .err "Index does not exist"
  | some _ => .ok ((m.indicies.get? name).getD []).keys

/-- Loop of `Index` collecting keys, store/internal/cache.go:164-169. -/
def collectKeys (index : Index) : List String → KeySet → KeySet
  | [], acc => acc
  | v :: vs, acc => collectKeys index vs (((index.get? v).getD []).foldl KeySet.add acc)

/-- store/internal/cache.go:153-175 `Index`; a key without item yields the zero container (cache.go:172). -/
def SIM.index {T : Type} [Inhabited T] (m : SIM T) (name : String) (obj : T) : Res (List (VC T)) :=
  match m.indexers.get? name with
  | none => .err "Index does not exist"
  | some indexer =>
    let index := (m.indicies.get? name).getD []
    .ok ((collectKeys index (indexer obj) []).map fun k => (m.items.get? k).getD VC.zero)

end Verif.Model
