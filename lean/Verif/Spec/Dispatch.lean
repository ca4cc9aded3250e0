import Verif.Model.Store

/-!
# Specification for dispatching records to stores
-/
namespace Verif.Spec
open Verif Verif.Model

/-- Calls on a dispatch registry. -/
inductive RegCmd where
  | register (tm : TypeMeta) (stor : Nat)
  | newDispatcher (source : SourceRef)

/-- The registry after the calls, and the dispatchers made. -/
def runReg : List RegCmd → RegWorld → RegWorld × List Dispatcher
  | [], w => (w, [])
  | .register tm i :: cs, w => runReg cs (w.registerStore tm i)
  | .newDispatcher src :: cs, w =>
    let r := w.newDispatcher src
    let q := runReg cs r.1
    (q.1, r.2 :: q.2)

/-- The store most recently registered for the type. -/
def lastRegistered (cs : List RegCmd) (tm : TypeMeta) : Option Nat :=
  (cs.filterMap fun c => match c with
    | .register tm' i => if tm' = tm then some i else none
    | .newDispatcher _ => none).getLast?

/-- The type name has no slash (true of all built-in record kinds, whose name is a Go identifier). -/
def PlainType (tm : TypeMeta) : Prop := '/' ∉ tm.type.toList

/-- The calls a store should get from a message: an Accumulate for each record of a type registered for it, in message order. -/
def routed {R : Type} (ops : RecOps R) (cs : List RegCmd) (source : SourceRef) (msg : List (R × GoTime)) (i : Nat) : List (Op R) :=
  (msg.filter fun p => match ops.typeMeta p.1 with
    | .ok tm => lastRegistered cs tm = some i
    | _ => false).map fun p => .accumulate source p.1 p.2

end Verif.Spec
