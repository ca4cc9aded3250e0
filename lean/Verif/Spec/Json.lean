import Verif.Spec.Serve
import Verif.Spec.Encoding

/-!
# Specification: captures
-/
namespace Verif.Spec
open Verif Verif.Model

/-- A built-in record type and its fields. -/
def Declares (name : String) (ds : List FieldDecl) : Prop := ∃ code, (code, GoType.struct name ds) ∈ vanTypes

/-- A time of Go's `time` package that RFC 3339 can write. -/
def ExactTime (t : GoTime) : Prop := Writable t ∧ t.nsec < 1000000000

/-- The values of a struct type agree in every field. -/
def SameFields (ds : List FieldDecl) (m m' : Mem GoTime) : Prop := ∀ p ty, LeafField ds p ty → m p = m' p

/-- The same entry, for a reader: source, time, annotations, type and every field of the record. -/
def SameEntry (a b : Entry (GoRec GoTime)) : Prop :=
  a.md.source = b.md.source ∧ a.md.updatedAt = b.md.updatedAt ∧ (∀ k, a.md.annotations.get? k = b.md.annotations.get? k) ∧ a.typeMeta = b.typeMeta ∧
    ∃ (r r' : RecVal GoTime) (ds : List FieldDecl), (a.record = .value r ∨ a.record = .pointer r) ∧ (b.record = .value r' ∨ b.record = .pointer r') ∧
      r.tname = r'.tname ∧ Declares r.tname ds ∧ SameFields ds r.mem r'.mem

/-- An entry as a capture should have it: a record of a built-in type, the type said by the entry, and times that can be written. -/
structure Captured (e : Entry (GoRec GoTime)) : Prop where
  record : ∃ (r : RecVal GoTime) (ds : List FieldDecl), (e.record = .value r ∨ e.record = .pointer r) ∧ Declares r.tname ds ∧ HasStructTy ds r.mem ∧
    e.typeMeta = ⟨"flow/v1", r.tname⟩
  times : ∀ t ∈ timesOf e, ExactTime t
  annotations : e.md.annotations.WF

/-- The ID of a record. -/
def idOfRecord (g : GoRec GoTime) : Option String :=
  match g with
  | .value r | .pointer r =>
    match r.mem [0, 0] with
    | .str s => some s
    | _ => some ""
  | _ => none

/-- The kind of a record. -/
def kindOf : GoRec GoTime → Option String
  | .value r | .pointer r => some r.tname
  | _ => none

/-- The ID of the record of an entry. -/
def idOf (e : Entry (GoRec GoTime)) : Option String := idOfRecord e.record

/-- No two entries of a list are for one record of one source. -/
def DistinctRecords (l : List (Entry (GoRec GoTime))) : Prop :=
  l.Pairwise fun a b => ¬ (a.md.source = b.md.source ∧ a.typeMeta = b.typeMeta ∧ idOf a = idOf b)

/-- A record as it comes out of a message. -/
def Received (r : GoRec GoTime) : Prop := ∃ attrs, decode vanEnv vanRegistry (some attrs) = .ok r ∧ isRecord r = true

/-- The records handed to the server, and the times at which they were. -/
def receivedRecords (evs : List ServeEv) : List (GoRec GoTime × GoTime) :=
  evs.flatMap fun ev =>
    match ev with
    | .records _ rs => rs
    | _ => []

/-- Records with one ID are of one kind. -/
def OneKindPerID (evs : List ServeEv) : Prop :=
  ∀ p ∈ receivedRecords evs, ∀ q ∈ receivedRecords evs, idOfRecord p.1 = idOfRecord q.1 → kindOf p.1 = kindOf q.1

end Verif.Spec
