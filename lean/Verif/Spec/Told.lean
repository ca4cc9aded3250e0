import Verif.Spec.Resync

/-! # Flushes that tell nothing new -/
namespace Verif.Spec
open Verif Verif.Model

/-- What was queued in the events, of the record `id`. -/
def toldOf (id : String) (tm : TypeMeta) (evs : List MgrEv) : List (GoRec GoTime) := (queued evs).flatten.filter fun r => decide (Mine id tm r)

/-- Whatever a flush sends of the record has been sent before: each attribute has the value that was queued last. -/
def OnlyTold (id : String) (tm : TypeMeta) (evs : List MgrEv) : Prop :=
  ∀ pre msg post, evs = pre ++ .queueFlush msg :: post → ∀ r ∈ msg, Mine id tm r → ∀ x y, attrOf r x = some y → latest (toldOf id tm pre) x = some y

/-- The event puts a message in the queue for sending. -/
def queues : MgrEv → Bool
  | .queueUpdate _ | .queueFlush _ => true
  | _ => false

/-- Every version is published, and no update of the record waits to be taken. -/
def Src.Told (id : String) (tm : TypeMeta) (s : Src) : Prop :=
  s.pub = s.versions.length ∧ ∀ u ∈ s.mgr.changeQueue, ¬ Mine id tm u.curr

/-- A run in which this is so whenever a message of a flush is put in the queue. -/
inductive Src.CalmRun (cfg : MgrConfig) (id : String) (tm : TypeMeta) : Src → List MgrEv → Src → Prop where
  | nil {s : Src} : Src.CalmRun cfg id tm s [] s
  | snoc {s s' s'' : Src} {evs : List MgrEv} {ev : Option MgrEv} : Src.CalmRun cfg id tm s evs s' → Src.Step cfg id tm s' ev s'' →
      (∀ msg, ev = some (.queueFlush msg) → s'.Told id tm) → Src.CalmRun cfg id tm s (evs ++ ev.toList) s''

end Verif.Spec
