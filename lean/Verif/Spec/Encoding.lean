import Verif.Model.Encoding

/-!
# Specification vocabulary for the encoding properties

What the English statements talk about: tagged fields of a struct type, attribute code written in a tag,
"unset" values and the documented canonical form.  Nothing here uses the encoder/decoder of the model; only its
data types (types, values, declarations).
-/
namespace Verif.Spec
open Verif Verif.Model

/-- `p` is the index path of an exported, tagged field of the struct type, possibly inside embedded structs. -/
inductive TaggedField : List FieldDecl → Path → String → FTy → Prop where
  | here {fs : List FieldDecl} {i : Nat} {name tag : String} {ty : FTy} :
      fs[i]? = some (.plain name true tag ty) → tag ≠ "" → TaggedField fs [i] tag ty
  | inside {fs gs : List FieldDecl} {i : Nat} {name tag : String} {ty : FTy} {p : Path} :
      fs[i]? = some (.embedded name gs) → TaggedField gs p tag ty → TaggedField fs (i :: p) tag ty

/-- `p` is the index path of some field (tagged or not) that is not itself an embedded struct. -/
inductive LeafField : List FieldDecl → Path → FTy → Prop where
  | here {fs : List FieldDecl} {i : Nat} {name tag : String} {e : Bool} {ty : FTy} :
      fs[i]? = some (.plain name e tag ty) → LeafField fs [i] ty
  | inside {fs gs : List FieldDecl} {i : Nat} {name : String} {ty : FTy} {p : Path} :
      fs[i]? = some (.embedded name gs) → LeafField gs p ty → LeafField fs (i :: p) ty

/-- Value of a string of decimal digits. -/
def decimal (cs : List Char) : Nat := cs.foldl (fun n c => 10 * n + (c.toNat - 48)) 0

/-- The tag text means attribute code `n`: the text before the first comma (or the whole text) is a decimal numeral of `n`. -/
def TagCode (tag : String) (n : Nat) : Prop :=
  ∃ ds rest : List Char, tag.toList = ds ++ rest ∧ ds ≠ [] ∧ (∀ c ∈ ds, c.isDigit) ∧ decimal ds = n ∧
    (rest = [] ∨ ∃ r, rest = ',' :: r)

/-- The tag text marks a required field: it ends in `,required` right after the code. -/
def TagRequired (tag : String) : Prop :=
  ∃ ds : List Char, tag.toList = ds ++ ",required".toList ∧ ∀ c ∈ ds, c.isDigit

/-- The value belongs to the type. -/
def HasTy {X : Type} : FTy → FVal X → Prop
  | .str, .str _ => True
  | .u32, .u32 _ => True
  | .u64, .u64 _ => True
  | .i32, .i32 _ => True
  | .i64, .i64 _ => True
  | .custom _, .custom _ => True
  | .ptr _, .nilp => True
  | .ptr t, .ptr v => HasTy t v
  | .unsupported _, .opaque => True
  | _, _ => False

/-- A struct value of the given struct type: every leaf field holds a value of its type. -/
def HasStructTy {X : Type} (decls : List FieldDecl) (m : Mem X) : Prop :=
  ∀ p ty, LeafField decls p ty → HasTy ty (m p)

/-- "Not set" in the sense of the wire format: nil, zero scalar, a user value that says so itself, or a pointer to such. -/
def Unset {X : Type} (env : CodecEnv X) : FTy → FVal X → Prop
  | .str, .str s => s = ""
  | .u32, .u32 n => n = 0
  | .u64, .u64 n => n = 0
  | .i32, .i32 n => n = 0
  | .i64, .i64 n => n = 0
  | .custom c, .custom x => (env c).enc x = .error .notSet
  | .ptr _, .nilp => True
  | .ptr t, .ptr v => Unset env t v
  | _, _ => False

/-- The canonical form: unset values become the zero value of the type, user values go through their own round trip
`rt` (for times: truncation to the microsecond), everything else is unchanged. -/
inductive Canon {X : Type} (env : CodecEnv X) (rt : String → X → X) : FTy → FVal X → FVal X → Prop where
  | unset {ty : FTy} {v : FVal X} : Unset env ty v → Canon env rt ty v (ty.zero env)
  | str {s : String} : s ≠ "" → Canon env rt .str (.str s) (.str s)
  | u32 {n : UInt32} : n ≠ 0 → Canon env rt .u32 (.u32 n) (.u32 n)
  | u64 {n : UInt64} : n ≠ 0 → Canon env rt .u64 (.u64 n) (.u64 n)
  | i32 {n : Int32} : n ≠ 0 → Canon env rt .i32 (.i32 n) (.i32 n)
  | i64 {n : Int64} : n ≠ 0 → Canon env rt .i64 (.i64 n) (.i64 n)
  | custom {c : String} {x : X} : (env c).enc x ≠ .error .notSet →
      Canon env rt (.custom c) (.custom x) (.custom (rt c x))
  | ptr {t : FTy} {v w : FVal X} : ¬ Unset env t v → Canon env rt t v w → Canon env rt (.ptr t) (.ptr v) (.ptr w)

/-- `m'` is `m` in canonical form: tagged fields canonical, untagged fields zero. -/
def CanonStruct {X : Type} (env : CodecEnv X) (rt : String → X → X) (decls : List FieldDecl) (m m' : Mem X) : Prop :=
  (∀ p tag ty, TaggedField decls p tag ty → Canon env rt ty (m p) (m' p)) ∧
  (∀ p ty, LeafField decls p ty → (∀ tag, ¬ TaggedField decls p tag ty) → m' p = ty.zero env)

/-- Codecs as the interfaces document them: an encoder that succeeds returns a (non-nil) attribute which the
decoder of the type reads back, as `rt`. -/
def LawfulCodecs {X : Type} (env : CodecEnv X) (rt : String → X → X) : Prop :=
  ∀ c x a, (env c).enc x = .ok a → a ≠ .nil ∧ (env c).dec a = .ok (rt c x)

/-- Decoding followed by encoding gives the attribute back. -/
def StableCodecs {X : Type} (env : CodecEnv X) : Prop :=
  ∀ c a x, (env c).dec a = .ok x → a ≠ .nil ∧ (env c).enc x = .ok a

/-- The zero value of a user type counts as "not set". -/
def ZeroUnset {X : Type} (env : CodecEnv X) : Prop := ∀ c, (env c).enc (env c).zero = .error .notSet

/-- The zero value of a scalar Go type, as an attribute. -/
def ZeroAttr (a : Any) : Prop := a = .str "" ∨ a = .u32 0 ∨ a = .u64 0 ∨ a = .i32 0 ∨ a = .i64 0

/-- The Go type is built from pointers around a scalar / around a user type. -/
def IsScalar : FTy → Prop
  | .str | .u32 | .u64 | .i32 | .i64 => True
  | .ptr t => IsScalar t
  | _ => False

/-- Registries that can arise: some sequence of accepted `MustRegisterRecord` calls, starting from the empty registry. -/
inductive ReachReg : Registry → Prop where
  | empty : ReachReg Registry.empty
  | register {reg reg' : Registry} {c : UInt32} {t : GoType} :
      ReachReg reg → mustRegister reg c t = .ok reg' → ReachReg reg'

/-- The struct type `name`, with these fields, is registered under the record code `code`. -/
def Registered (reg : Registry) (name : String) (decls : List FieldDecl) (code : UInt32) : Prop :=
  ∃ e, reg.encodings.get? name = some e ∧ e.decls = decls ∧ e.codepoint = code

/-- No tagged field of the type uses attribute code 0 (the code reserved for the record type). -/
def NoCodeZero (decls : List FieldDecl) : Prop := ∀ p tag ty, TaggedField decls p tag ty → ¬ TagCode tag 0

end Verif.Spec
