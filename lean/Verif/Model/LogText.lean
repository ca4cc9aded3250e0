import Verif.Model.JsonText
import Verif.Model.LogOnly

/-!
# What the log mode of `vanflow-tool` prints (`/repo/cmd/vanflow-tool/log.go:111-141`)
-/
namespace Verif.Model
open Verif

/-- A string field with `omitempty`. -/
def jsonOmitEmpty (name s : String) : List (String × Json) := if s = "" then [] else [(name, .str s)]

/-- log.go:135-138 `RecordData`. -/
def jsonOfRecordData (r : String × GoRec GoTime) : Option Json := (jsonMembersOf [("type", some (.str r.1)), ("data", jsonOfRecord r.2)]).map .obj

/-- log.go:124-134 `Message`: the fields in the order of the type; `SourceType`, `Address` and `Direct` are never set.  `Data` is left out when it is nil (an interface), not when it is an empty
slice. -/
def jsonOfLine (l : Line) : Option Json :=
  let data : Option (List (String × Json)) :=
    match l.data with
    | none => some []
    | some rs => (jsonAll jsonOfRecordData rs).map fun js => [("data", .arr js)]
  data.map fun d => .obj ([("to", .str l.to), ("subject", .str l.subject)] ++ jsonOmitEmpty "v" l.v ++ jsonOmitEmpty "now" l.now ++ jsonOmitEmpty "id" l.id ++ d)

/-- log.go:117 `enc.Encode(out)`: the text, if there is one. -/
def lineText (l : Line) : List Char :=
  match jsonOfLine l with
  | some j => encodeText j
  | none => []

/-- Standard output. -/
def outputText (evs : List LgEv) : List Char :=
  evs.flatMap fun
    | .wrote l => lineText l
    | .dropped l => lineText l
    | _ => []

end Verif.Model
