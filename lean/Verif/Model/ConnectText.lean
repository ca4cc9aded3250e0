import Verif.Model.JsonText
import Verif.Model.ToolMain

/-!
# Reading a connect.json (`/repo/cmd/vanflow-tool/main.go:80-91, 150-162`)

The text of the file given with `-messaging-config`, up to the `connectJSON` value.  `fold` is how `encoding/json` compares names regardless of case.
-/
namespace Verif.Model
open Verif

/-- Reading into a bool (main.go:154). -/
def jsonBool (old : Bool) : Json → Option Bool
  | .null => some old
  | .bool b => some b
  | _ => none

/-- main.go:150-155: the members of a `tlsConfig`, by their tags. -/
def tlsFields : JFields ToolTls :=
  [("ca", fun t j => (jsonString t.ca j).map fun s => { t with ca := s }),
   ("cert", fun t j => (jsonString t.cert j).map fun s => { t with cert := s }),
   ("key", fun t j => (jsonString t.key j).map fun s => { t with key := s }),
   ("verify", fun t j => (jsonBool t.verify j).map fun b => { t with verify := b })]

/-- main.go:157-162: the members of a `connectJSON`, by their tags. -/
def connectFields (fold : String → String) : JFields ConnectJSON :=
  [("scheme", fun c j => (jsonString c.scheme j).map fun s => { c with scheme := s }),
   ("host", fun c j => (jsonString c.host j).map fun s => { c with host := s }),
   ("port", fun c j => (jsonString c.port j).map fun s => { c with port := s }),
   ("tls", fun c j => (jsonStruct fold tlsFields c.tls j).map fun t => { c with tls := t })]

/-- main.go:86-91: `json.Unmarshal(b, &cfg)`; `none` is the exit with status 1. -/
def connectText (fold : String → String) (text : String) : Option ConnectJSON :=
  (unmarshalText text.toList).bind (jsonStruct fold (connectFields fold) {})

end Verif.Model
