import Verif.Model.FieldTypes

/-!
# Specification vocabulary for field types
-/
namespace Verif.Spec
open Verif Verif.Model

/-- A value of a type. -/
inductive IsOf {X : Type} : GTy → GVal X → Prop where
  | str (s : String) : IsOf (.basic .str) (.sc (.str s))
  | u32 (n : UInt32) : IsOf (.basic .u32) (.sc (.u32 n))
  | u64 (n : UInt64) : IsOf (.basic .u64) (.sc (.u64 n))
  | i32 (n : Int32) : IsOf (.basic .i32) (.sc (.i32 n))
  | i64 (n : Int64) : IsOf (.basic .i64) (.sc (.i64 n))
  | other : IsOf (.basic .other) .opaque
  | named {n : String} {k : GKind} {c : Any} : IsOf (X := X) (.basic k) (.sc c) → IsOf (.defined n k) (.sc c)
  | struct {n : String} (x : X) : IsOf (.defined n .other) (.st x)
  | nil {t : GTy} : IsOf (.ptr t) .nilp
  | ptr {t : GTy} {v : GVal X} : IsOf t v → IsOf (.ptr t) (.ptr v)
  | nilIface {e d : Bool} : IsOf (.iface e d) .nilIface
  | iface {e d : Bool} {n : String} {k : GKind} {v : GVal X} : IsOf (.defined n k) v → IsOf (.iface e d) (.iface n v)

/-- The type below all pointers. -/
def core : GTy → GTy
  | .ptr t => core t
  | t => t

/-- How often a pointer has to be followed. -/
def depth : GTy → Nat
  | .ptr t => depth t + 1
  | _ => 0

/-- A pointer to a pointer to … the type, and such a pointer to the value. -/
def ptrTo : Nat → GTy → GTy
  | 0, t => t
  | j + 1, t => .ptr (ptrTo j t)

def addrOf {X : Type} : Nat → GVal X → GVal X
  | 0, v => v
  | j + 1, v => .ptr (addrOf j v)

/-- Registration accepts the field: there are an encoder and a decoder. -/
def Accepts {X : Type} (env : GEnv X) (t : GTy) : Prop := (∃ e, gEncoder env t = some e) ∧ ∃ d, gDecoder env t = some d

/-- The type is a scalar without methods, or has both methods: the decoder on a pointer, the encoder such that the field can call it (a method on the pointer needs a field that is one). -/
def Coherent {X : Type} (env : GEnv X) (t : GTy) : Prop :=
  match core t with
  | .basic k => k ≠ .other
  | .defined n k =>
    ((env.methods n).enc = .absent ∧ (env.methods n).dec = .absent ∧ k ≠ .other) ∨
    ((env.methods n).dec = .pointer ∧ ((env.methods n).enc = .value ∨ ((env.methods n).enc = .pointer ∧ 0 < depth t)))
  | _ => False

/-- The codec methods lose nothing. -/
def LosslessMethods {X : Type} (env : GEnv X) : Prop := ∀ n v a, env.encM n v = .ok a → env.decM n a = .ok v

/-- A transport of attributes that knows nothing of the sender's types, as AMQP: what arrives is of a predeclared type. -/
def Plain (wire : DAny → Option DAny) : Prop := ∀ a b, wire a = some b → ∀ n c, b = .val n c → n = ""

end Verif.Spec
