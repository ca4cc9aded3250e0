import Verif.Model.Fixture

/-!
# Specification for the fixture server
-/
namespace Verif.Spec
open Verif Verif.Model

/-- The record kinds the tool is configured for. -/
def configured (flows logs : Bool) (tm : TypeMeta) : Prop :=
  tm.apiVersion = "flow/v1" ∧
    (tm.type = "SiteRecord" ∨ tm.type = "LinkRecord" ∨ tm.type = "RouterRecord" ∨ tm.type = "ListenerRecord" ∨
     tm.type = "ConnectorRecord" ∨ tm.type = "ProcessRecord" ∨ (flows = true ∧ tm.type = "FlowRecord") ∨ (logs = true ∧ tm.type = "LogRecord"))

instance (flows logs : Bool) (tm : TypeMeta) : Decidable (configured flows logs tm) := by unfold configured; infer_instance

/-- What an uploaded entry becomes: nothing when its type is not configured or its record does not parse. -/
def loadedEntry {J : Type} (unmarshal : String → J → Option (Mem GoTime)) (flows logs : Bool) (p : PartialEntry J) :
    Option (Entry (GoRec GoTime)) :=
  if configured flows logs p.typeMeta then
    (unmarshal p.typeMeta.type p.record).map fun m => ⟨p.md, p.typeMeta, .pointer ⟨p.typeMeta.type, m⟩⟩
  else none

/-- The loaded entries of a source, in upload order. -/
def groupOf {J : Type} (unmarshal : String → J → Option (Mem GoTime)) (flows logs : Bool) (data : List (PartialEntry J)) (src : SourceRef) :
    List (Entry (GoRec GoTime)) :=
  (data.filterMap (loadedEntry unmarshal flows logs)).filter fun e => e.md.source = src

/-- The ID of the record of an entry. -/
def entryID (e : Entry (GoRec GoTime)) : Option String :=
  match e.record with
  | .pointer r =>
    match r.mem [0, 0] with
    | .str s => some s
    | _ => some ""
  | _ => none

/-- The same record: same kind and same ID. -/
def sameRecord (a b : Entry (GoRec GoTime)) : Bool := a.typeMeta = b.typeMeta ∧ entryID a = entryID b

/-- The entries not followed by another one for the same record. -/
def survivors : List (Entry (GoRec GoTime)) → List (Entry (GoRec GoTime))
  | [] => []
  | e :: es => if es.any (sameRecord e) then survivors es else e :: survivors es

/-- The flow records among entries: ID and, when set and not empty, the counterflow. -/
def flowRefs (es : List (Entry (GoRec GoTime))) : List (String × Option String) :=
  es.filterMap fun e =>
    match e.record with
    | .pointer r =>
      if e.typeMeta = ⟨"flow/v1", "FlowRecord"⟩ then
        match entryID e, r.mem [2] with
        | some id, .ptr (.str c) => some (id, if c = "" then none else some c)
        | some id, _ => some (id, none)
        | none, _ => none
      else none
    | _ => none

/-- The ID of a record passed by pointer. -/
def pointerID : GoRec GoTime → Option String
  | .pointer r =>
    match r.mem [0, 0] with
    | .str s => some s
    | _ => none
  | _ => none

/-- A counter after `j` increments of the replayed flow number `i` (from 0): each adds the counter divided by `i + 1`. -/
def grown (i : Nat) (x : UInt64) : Nat → UInt64
  | 0 => x
  | j + 1 => grown i x j + grown i x j / UInt64.ofNat (i + 1)

/-- What a counter field counts; 0 if it is not set. -/
def countOf : FVal GoTime → UInt64
  | .ptr (.u64 n) => n
  | _ => 0

/-- A field of a record passed by pointer. -/
def fieldOf (p : Path) : GoRec GoTime → Option (FVal GoTime)
  | .pointer r => some (r.mem p)
  | _ => none

/-- The updates for the record with this ID sent to one of the two managers, in order. -/
def updatesFor (us : List (Side × RecordUpdate)) (side : Side) (id : String) : List RecordUpdate :=
  (us.filter fun p => decide (p.1 = side) && decide (pointerID p.2.curr = some id)).map Prod.snd

/-- Each update continues from the record the one before ended with, the first from `prev`. -/
def Continues : GoRec GoTime → List RecordUpdate → Prop
  | _, [] => True
  | prev, u :: us => u.prev = prev ∧ Continues u.curr us

end Verif.Spec
