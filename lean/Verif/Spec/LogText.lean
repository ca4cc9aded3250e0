import Verif.Model.LogText
import Verif.Spec.JsonText
import Verif.Spec.LogOnly
import Verif.Spec.Json

/-!
# What C113 speaks about
-/
namespace Verif.Spec
open Verif Verif.Model

/-- A string field that is left out when empty. -/
def ShownUnlessEmpty (ms : List (String × Json)) (name s : String) : Prop := ms.lookup name = if s = "" then none else some (.str s)

/-- The object has the name of the type and, as `data`, JSON from which every field of the record can be read back. -/
def RecordShown (x : String × GoRec GoTime) (j : Json) : Prop :=
  ∃ ms jr, j = .obj ms ∧ ms.lookup "type" = some (.str x.1) ∧ ms.lookup "data" = some jr ∧
    ∃ (r : RecVal GoTime) (ds : List FieldDecl), (x.2 = .value r ∨ x.2 = .pointer r) ∧ Declares r.tname ds ∧ ∀ fold, ∃ m', jsonUnmarshal fold r.tname (some jr) = some m' ∧ SameFields ds r.mem m'

/-- The object shows everything that is in the line. -/
def LineShown (l : Line) (j : Json) : Prop :=
  ∃ ms, j = .obj ms ∧ (ms.map Prod.fst).Nodup ∧ ms.lookup "to" = some (.str l.to) ∧ ms.lookup "subject" = some (.str l.subject) ∧ ShownUnlessEmpty ms "v" l.v ∧ ShownUnlessEmpty ms "now" l.now ∧
    ShownUnlessEmpty ms "id" l.id ∧ (l.data = none → ms.lookup "data" = none) ∧ ∀ rs, l.data = some rs → ∃ js, ms.lookup "data" = some (.arr js) ∧ js.length = rs.length ∧
      ∀ (i : Nat) x y, rs[i]? = some x → js[i]? = some y → RecordShown x y

/-- The records of a decoded message. -/
def recordsOf : Decoded → List (GoRec GoTime)
  | .record m => m.records
  | _ => []

/-- The messages given to the handlers hold records as they come out of messages. -/
def ReceivedOnly (evs : List LgEv) : Prop := ∀ t d, LgEv.handled t d ∈ evs → ∀ r ∈ recordsOf d, Received r

end Verif.Spec
