import Verif.Spec.Pipeline
import Verif.Spec.EndToEnd

/-!
# What is said about a flush while the stores are being written
-/
namespace Verif.Spec
open Verif Verif.Model

/-- The calls of store `i`, in order. -/
def opsOn (i : Nat) (evs : List MgrEv) : List (Op (GoRec GoTime)) :=
  evs.filterMap fun ev => match ev with | .storeOp j op => if j = i then some op else none | _ => none

/-- All through the events, store `i` — with configuration `c` and the calls `h` before them — has an entry under key `k` of which `P` holds, and none of the keys before `k` goes away.
It is called with good records only, and never has 2^31 entries. -/
structure Stays (c : CacheConfig (GoRec GoTime)) (h : List (Op (GoRec GoTime))) (i : Nat) (k : String) (P : Entry (GoRec GoTime) → Prop) (evs : List MgrEv) : Prop where
  config : GoodConfig c
  coherent : CoherentKey vanOps (keyOf vanOps c) (Props.GoodRecord vanRegistry)
  calls : ∀ op ∈ h ++ opsOn i evs, Op.All (Props.GoodRecord vanRegistry) op
  here : ∀ p, p <+: evs → ∃ e, content vanOps c (h ++ opsOn i p) k = some e ∧ P e
  before : ∀ p ev, p ++ [ev] <+: evs → ∀ x, x < k → content vanOps c (h ++ opsOn i p) x ≠ none → content vanOps c (h ++ opsOn i (p ++ [ev])) x ≠ none
  small : ∀ p, p <+: evs → ∀ ks, SortedKeys (content vanOps c (h ++ opsOn i p)) (fun _ => True) 0 ks → ks.length < 2 ^ 31

/-- No flush has sent the record. -/
def NotFlushed (id : String) (tm : TypeMeta) (evs : List MgrEv) : Prop := ∀ msg, .queueFlush msg ∈ evs → ∀ r ∈ msg, ¬ Mine id tm r

/-- The attribute `x` of the record `id`, as a store with the history `h` shows it. -/
def shown (c : CacheConfig (GoRec GoTime)) (h : List (Op (GoRec GoTime))) (id : String) (x : Any) : Option Any := (content vanOps c h id).bind fun e => attrOf e.record x

end Verif.Spec
