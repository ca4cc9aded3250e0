import Verif.Model.Alias

/-!
# Specification of the store with shared annotation maps
-/
namespace Verif.Spec
open Verif Verif.Model

/-- The entry stored under a key: the one put last, unless deleted since. -/
def putLast (ops : List SharedOp) (key : String) : Option SharedEntry :=
  ops.foldl (fun m op =>
    match op with
    | .put e => if e.key = key then some e else m
    | .delete k => if k = key then none else m
    | .write _ _ _ => m) none

/-- What a map holds under `k`: what was written last, else what it held at first. -/
def written (heap : MapHeap) (ops : List SharedOp) (ref : Nat) (k : String) : Option String :=
  ops.foldl (fun m op =>
    match op with
    | .write r k' v => if r = ref ∧ k' = k then some v else m
    | _ => m) ((heap ref).get? k)

/-- The site of an entry by its annotations as they are now. -/
def siteNow (heap : MapHeap) (ops : List SharedOp) (e : SharedEntry) : String :=
  match written heap ops e.annotations "skupper.io/flow/site-id" with
  | some s => s
  | none => "unknown"

/-- No write goes to the map of an entry that is stored at that time. -/
def LeavesStored (ops : List SharedOp) : Prop :=
  ∀ pre ref k v post, ops = pre ++ .write ref k v :: post → ∀ key e, putLast pre key = some e → e.annotations ≠ ref

/-- `l` are the entries stored that satisfy `P`, one per key. -/
def StoredExactly (ops : List SharedOp) (P : SharedEntry → Prop) (l : List SharedEntry) : Prop :=
  ∃ ks : List String, ks.Nodup ∧ (∀ k, k ∈ ks ↔ ∃ e, putLast ops k = some e ∧ P e) ∧ l.map some = ks.map (putLast ops)

end Verif.Spec
