import Verif.Model.Store

/-!
# Annotation maps shared with the caller

`Metadata.Annotations` (store/store.go:21) is a Go map, that is a reference: the store keeps the very map the caller passed in (and hands out
the very map it keeps), and the default site index (store/cache.go:256-262) reads it at each insertion and removal.
Here an entry holds a reference into a heap of maps, and the caller may write through any reference at any time.
-/
namespace Verif.Model
open Verif

/-- The heap of annotation maps. -/
abbrev MapHeap := Nat → GMap String String

/-- store/store.go:37-41 `Entry`, with its annotations by reference. Simplification: the rest of the entry is its key and its source. -/
structure SharedEntry where
  key : String
  source : String
  annotations : Nat
deriving DecidableEq, Repr

/-- The zero entry; reference 0 stands for the nil map. -/
instance : Inhabited SharedEntry := ⟨{ key := "", source := "", annotations := 0 }⟩

/-- store/cache.go:251-264 `defaultIndexers`, reading the heap as it is at the time of the call. -/
def sharedIndexers (heap : MapHeap) : GMap String (Indexer SharedEntry) :=
  [ (indexBySource, fun e => [e.source]),
    (indexBySite, fun e => [((heap e.annotations).get? siteAnnotationKey).getD siteUnknownValue]) ]

/-- The heap and the storage. -/
structure Shared where
  heap : MapHeap
  sim : SIM SharedEntry

/-- The storage seen with the index functions of the current heap. -/
def Shared.now (s : Shared) : SIM SharedEntry := { s.sim with indexers := sharedIndexers s.heap }

/-- What happens: store calls (Add/Update: store/cache.go:176-220; Delete: 222-232), and writes by the caller `m[k] = v` through a map
reference it still has. -/
inductive SharedOp where
  | put (e : SharedEntry)
  | delete (key : String)
  | write (ref : Nat) (k v : String)

/-- One operation. -/
def Shared.step (s : Shared) : SharedOp → Shared
  | .put e => { s with sim := (s.now.put e.key e).1 }
  | .delete key => { s with sim := (s.now.delete key).1 }
  | .write ref k v => { s with heap := fun r => if r = ref then (s.heap r).set k v else s.heap r }

/-- From an empty store and the maps the caller has made. -/
def Shared.run (heap : MapHeap) (ops : List SharedOp) : Shared :=
  ops.foldl Shared.step { heap := heap, sim := SIM.new (sharedIndexers heap) }

end Verif.Model
