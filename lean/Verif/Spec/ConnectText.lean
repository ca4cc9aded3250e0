import Verif.Model.ConnectText
import Verif.Spec.JsonText
import Verif.Spec.ToolMain

/-!
# What a connect.json says
-/
namespace Verif.Spec
open Verif Verif.Model

/-- The values of the members with a name, up to case, in order. -/
def valuesOf (fold : String → String) (name : String) (ms : List (String × Json)) : List Json := (ms.filter fun m => fold m.1 = fold name).map Prod.snd

/-- The last string; nothing is the empty string. -/
def lastString (js : List Json) : String := ((js.filterMap fun | .str s => some s | _ => none).getLast?).getD ""

/-- The last truth value; nothing is false. -/
def lastBool (js : List Json) : Bool := ((js.filterMap fun | .bool b => some b | _ => none).getLast?).getD false

/-- The members of all the objects, one after the other. -/
def allMembers (js : List Json) : List (String × Json) := js.flatMap fun | .obj ms => ms | _ => []

/-- A value a string field takes. -/
def Stringy (j : Json) : Prop := j = .null ∨ ∃ s, j = .str s

def Booly (j : Json) : Prop := j = .null ∨ ∃ b, j = .bool b

/-- The values have the kinds their fields have. -/
structure WellTyped (fold : String → String) (ms : List (String × Json)) : Prop where
  strings : ∀ n ∈ ["scheme", "host", "port"], ∀ j ∈ valuesOf fold n ms, Stringy j
  tls : ∀ j ∈ valuesOf fold "tls" ms, j = .null ∨ ∃ ts, j = .obj ts
  tlsStrings : ∀ n ∈ ["ca", "cert", "key"], ∀ j ∈ valuesOf fold n (allMembers (valuesOf fold "tls" ms)), Stringy j
  verify : ∀ j ∈ valuesOf fold "verify" (allMembers (valuesOf fold "tls" ms)), Booly j

/-- What the members say: of each setting the last value counts, and several `tls` objects are one. -/
def settingsOf (fold : String → String) (ms : List (String × Json)) : ConnectJSON :=
  let ts := allMembers (valuesOf fold "tls" ms)
  { scheme := lastString (valuesOf fold "scheme" ms), host := lastString (valuesOf fold "host" ms), port := lastString (valuesOf fold "port" ms),
    tls := { ca := lastString (valuesOf fold "ca" ts), cert := lastString (valuesOf fold "cert" ts), key := lastString (valuesOf fold "key" ts), verify := lastBool (valuesOf fold "verify" ts) } }

/-- Comparing names regardless of case does not confuse the settings. -/
def TellsApart (fold : String → String) : Prop := (["scheme", "host", "port", "tls"].map fold).Nodup ∧ (["ca", "cert", "key", "verify"].map fold).Nodup

/-- The text is a connect.json with these settings. -/
def ConnectDoc (fold : String → String) (text : String) (c : ConnectJSON) : Prop :=
  (JsonDoc text.toList .null ∧ c = {}) ∨ ∃ ms, JsonDoc text.toList (.obj ms) ∧ WellTyped fold ms ∧ c = settingsOf fold ms

end Verif.Spec
