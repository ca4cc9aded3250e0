import Verif.Model.Store

/-!
# Specification vocabulary for the store properties

An abstract store is a partial function from keys to entries.  `effect` says, from the documentation of the store
(`/repo/store/store.go`) alone, what a call that ended with a given outcome does to it.  No versions, indexes or item maps occur.
-/
namespace Verif.Spec
open Verif Verif.Model

variable {R : Type}

/-- The abstract content of a store. -/
abbrev AMap (R : Type) := String → Option (Entry R)

/-- The effect of a call on the content. -/
inductive Effect (R : Type) where
  | nothing
  | put (k : String) (e : Entry R)
  | remove (k : String)
  | reset (m : AMap R)

def Effect.apply (m : AMap R) : Effect R → AMap R
  | .nothing => m
  | .put k e => fun k' => if k' = k then some e else m k'
  | .remove k => fun k' => if k' = k then none else m k'
  | .reset m' => m'

/-- The effect writes key `k`. -/
def Effect.writes (k : String) : Effect R → Prop
  | .nothing => False
  | .put k' _ => k = k'
  | .remove _ => False
  | .reset m => ∃ e, m k = some e

/-- The effect removes key `k` (or leaves it out). -/
def Effect.removes (k : String) : Effect R → Prop
  | .nothing => False
  | .put _ _ => False
  | .remove k' => k = k'
  | .reset m => m k = none

/-- The last entry with key `k` in a list, if any. -/
def lastWithKey (kf : KeyFunc R) (es : List (Entry R)) (k : String) : Option (Entry R) :=
  (es.filter fun e => decide (kf e = .ok k)).getLast?

/-- What accumulating `r` from `source` makes of the entry at its key: a new entry when there was none; nothing when every
attribute of `r` is already there; otherwise the old entry with the attributes of `r` laid over the old ones. -/
def accumulated (ops : RecOps R) (old : Option (Entry R)) (source : SourceRef) (r : R) (now : GoTime) : Option (Entry R) :=
  match old with
  | none =>
    match ops.typeMeta r with
    | .ok tm => some { record := r, md := { source := source, updatedAt := now, annotations := [] }, typeMeta := tm }
    | _ => none
  | some old =>
    match ops.encode old.record, ops.encode r with
    | .ok a, .ok b =>
      if ∀ p ∈ b, a.get? p.1 = some p.2 then none
      else
        match ops.decode (b ++ a) with
        | .ok raw => some { old with md := { old.md with updatedAt := now }, record := raw }
        | _ => none
    | _, _ => none

/-- The effect of a call, given how it ended. -/
def effect (ops : RecOps R) (kf : KeyFunc R) (m : AMap R) (op : Op R) (res : Res Unit) : Effect R :=
  match op, res with
  | .add e now, .ok () =>
    match kf e with
    | .ok k => .put k { e with md := { e.md with updatedAt := now } }
    | _ => .nothing
  | .update e _ now, .ok () =>
    match kf e with
    | .ok k => .put k { e with md := { e.md with updatedAt := now } }
    | _ => .nothing
  | .delete e, .ok () =>
    match kf e with
    | .ok k => .remove k
    | _ => .nothing
  | .replace es, .ok () => .reset (lastWithKey kf es)
  | .accumulate s r now, .ok () =>
    match kf (Entry.ofRecord r) with
    | .ok k =>
      match accumulated ops (m k) s r now with
      | some e => .put k e
      | none => .nothing
    | _ => .nothing
  | _, _ => .nothing

/-- The content after a history of calls with their outcomes, from content `m`. -/
def replay (ops : RecOps R) (kf : KeyFunc R) (m : AMap R) (h : List (Op R × Out R Unit)) : AMap R :=
  h.foldl (fun m p => (effect ops kf m p.1 p.2.res).apply m) m

/-- No call of the history removes key `k`. -/
def NeverRemoved (ops : RecOps R) (kf : KeyFunc R) (k : String) : AMap R → List (Op R × Out R Unit) → Prop
  | _, [] => True
  | m, p :: h => ¬ (effect ops kf m p.1 p.2.res).removes k ∧
      NeverRemoved ops kf k ((effect ops kf m p.1 p.2.res).apply m) h

/-- No call of the history writes key `k`. -/
def NeverWritten (ops : RecOps R) (kf : KeyFunc R) (k : String) : AMap R → List (Op R × Out R Unit) → Prop
  | _, [] => True
  | m, p :: h => ¬ (effect ops kf m p.1 p.2.res).writes k ∧
      NeverWritten ops kf k ((effect ops kf m p.1 p.2.res).apply m) h

/-- `l` lists the entries of `m` that satisfy `P`, one per key. -/
def ListsExactly (m : AMap R) (P : Entry R → Prop) (l : List (Entry R)) : Prop :=
  ∃ ks : List String, ks.Nodup ∧ (∀ k, k ∈ ks ↔ ∃ e, m k = some e ∧ P e) ∧ l.map some = ks.map m

/-- What the record operations must satisfy for the merge to be well defined: encoding yields a map, and decoding reads the
attribute set only through lookups. -/
structure LawfulOps (ops : RecOps R) : Prop where
  encode_wf : ∀ r a, ops.encode r = .ok a → GMap.WF a
  decode_congr : ∀ a b : Attrs, (∀ k, a.get? k = b.get? k) → ops.decode a = ops.decode b

/-- The state after a history from an empty store with the given configuration. -/
def after [Inhabited R] (ops : RecOps R) (cfg : CacheConfig R) (h : List (Op R)) : Cache R := ((newCache ops cfg).run ops h).1

/-- The same with outcomes. -/
def historyOf [Inhabited R] (ops : RecOps R) (cfg : CacheConfig R) (h : List (Op R)) : List (Op R × Out R Unit) :=
  ((newCache ops cfg).run ops h).2

/-- The key function of a configuration: the given one, by default the identity of the record. -/
def keyOf (ops : RecOps R) (cfg : CacheConfig R) : KeyFunc R :=
  match cfg.key with
  | some kf => kf
  | none => fun e => ops.identity e.record

/-- The index functions of a configuration: the given ones, by default the source and the site annotation. -/
def indexerOf (cfg : CacheConfig R) (name : String) : Option (Indexer (Entry R)) :=
  match cfg.indexers with
  | some ixr => ixr.get? name
  | none =>
    if name = "source" then some fun e => [e.md.source.str]
    else if name = "site" then
      some fun e => match e.md.annotations.get? "skupper.io/flow/site-id" with
        | some s => [s]
        | none => ["unknown"]
    else none

/-- The content after a history, by the specification. -/
def content [Inhabited R] (ops : RecOps R) (cfg : CacheConfig R) (h : List (Op R)) : AMap R :=
  replay ops (keyOf ops cfg) (fun _ => none) (historyOf ops cfg h)

/-- The index functions of a configuration, as a map without repeated names. -/
def GoodConfig (cfg : CacheConfig R) : Prop := ∀ ixr, cfg.indexers = some ixr → GMap.WF ixr

/-- Every record given to the call satisfies `P`. -/
def Op.All (P : R → Prop) : Op R → Prop
  | .add e _ => P e.record
  | .update e _ _ => P e.record
  | .replace es => ∀ e ∈ es, P e.record
  | .accumulate _ r _ => P r
  | _ => True

/-- The key function depends only on things that stay the same while an entry is in the store: not on the time of the last update,
and for accumulated records it computes from the record alone the same key as from the stored entry. -/
structure CoherentKey (ops : RecOps R) (kf : KeyFunc R) (Good : R → Prop) : Prop where
  stamp : ∀ (e : Entry R) (t : GoTime), kf { e with md := { e.md with updatedAt := t } } = kf e
  fresh : ∀ (r : R) (md : Metadata) (tm : TypeMeta), ops.typeMeta r = .ok tm → kf ⟨md, tm, r⟩ = kf (Entry.ofRecord r)
  merge : ∀ (old : Entry R) (r y : R) (a b : Attrs) (md : Metadata), Good old.record → Good r → kf old = kf (Entry.ofRecord r) →
    ops.encode old.record = .ok a → ops.encode r = .ok b → ops.decode (b ++ a) = .ok y →
    Good y ∧ kf ⟨md, old.typeMeta, y⟩ = kf (Entry.ofRecord r)

/-! ## Selectors -/

/-- Key order: ascending, or descending for ordering 1 (`Descending`). -/
def before (ordering : Int) (a b : String) : Prop := if ordering = 1 then b < a else a < b

/-- The keys of the entries satisfying `P`, in strict order. -/
def SortedKeys (m : AMap R) (P : Entry R → Prop) (ordering : Int) (ks : List String) : Prop :=
  ks.Pairwise (before ordering) ∧ ∀ k, k ∈ ks ↔ ∃ e, m k = some e ∧ P e

/-- What a caller asks for: all entries (`none`, List) or those sharing a value of the named index with an entry (`some`, Index). -/
abbrev Query (R : Type) := Option (String × Entry R)

/-- The entries a query is about. -/
def Query.matches (cfg : CacheConfig R) : Query R → Entry R → Prop
  | none, _ => True
  | some (name, e), x => ∃ f, indexerOf cfg name = some f ∧ ∃ v, v ∈ f e ∧ v ∈ f x

/-- The query names an existing index. -/
def Query.known (cfg : CacheConfig R) : Query R → Prop
  | none => True
  | some (name, _) => indexerOf cfg name ≠ none

/-- The call for the query. -/
def Query.ask [Inhabited R] (c : Cache R) (q : Query R) (sel : Selector) (nonce : Int) : Res (SetRes R) :=
  match q with
  | none => c.list (some sel) nonce
  | some (name, e) => c.index name e (some sel) nonce

/-- A caller that follows continue tokens: `page i t` is the answer to its `i`-th call, made with token `t`. -/
inductive Walk (page : Nat → String → Res (SetRes R)) : Nat → String → List (List (Entry R)) → Prop where
  | last {i : Nat} {t : String} {p : List (Entry R)} : page i t = .ok { entries := p, cont := "" } → Walk page i t [p]
  | more {i : Nat} {t t' : String} {p : List (Entry R)} {ps : List (List (Entry R))} :
      page i t = .ok { entries := p, cont := t' } → t' ≠ "" → Walk page (i + 1) t' ps → Walk page i t (p :: ps)

/-! ## Event log -/

/-- A consumer that mirrors the store from its events: from content `m`, the event leads to content `m'`.  An add must be of a key it does
not have, a change and a deletion of the very entry it has. -/
inductive Mirror (kf : KeyFunc R) (m : AMap R) : Event R → AMap R → Prop where
  | add {e : Entry R} {k : String} : kf e = .ok k → m k = none → Mirror kf m (.add e) (fun k' => if k' = k then some e else m k')
  | change {p e : Entry R} {k : String} : kf e = .ok k → m k = some p →
      Mirror kf m (.change p e) (fun k' => if k' = k then some e else m k')
  | delete {e : Entry R} {k : String} : kf e = .ok k → m k = some e → Mirror kf m (.delete e) (fun k' => if k' = k then none else m k')

/-- The mirror after a list of events. -/
inductive MirrorAll (kf : KeyFunc R) : AMap R → List (Event R) → AMap R → Prop where
  | nil {m : AMap R} : MirrorAll kf m [] m
  | cons {m m' m'' : AMap R} {ev : Event R} {evs : List (Event R)} :
      Mirror kf m ev m' → MirrorAll kf m' evs m'' → MirrorAll kf m (ev :: evs) m''

/-- All events of a history, in order. -/
def eventsOf (h : List (Op R × Out R Unit)) : List (Event R) := h.flatMap fun p => p.2.events

end Verif.Spec
