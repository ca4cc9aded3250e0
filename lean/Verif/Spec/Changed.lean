import Verif.Spec.Pipeline

/-!
# A change of an attribute
-/
namespace Verif.Spec
open Verif Verif.Model

/-- After the first `n` of the versions there is one that has a value of `x` which the version before it — if there is one — has not. -/
def ChangedSince (n : Nat) (vs : List (GoRec GoTime)) (x : Any) : Prop :=
  ∃ p r q y, vs = p ++ r :: q ∧ n ≤ p.length ∧ attrOf r x = some y ∧ ∀ w, p.getLast? = some w → attrOf w x ≠ some y

end Verif.Spec
