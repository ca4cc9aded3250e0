import Verif.Model.Encoding

/-!
# Field encoders and decoders for all field types (`/repo/encoding/encoder.go:62-117`, `/repo/encoding/decoder.go:49-122`)

`Verif/Model/Encoding.lean` has types with both codec methods only, on the usual receivers, and no defined scalar types.  Here a field type is any Go type, as far as the code looks at it: its kind,
and which of the two codec methods its method set has.

Simplifications: a defined pointer type has no methods in Go and is its pointer here; an interface value holds a pointer to a defined type; methods promoted from an embedded field count as declared.
-/
namespace Verif.Model
open Verif

/-- `reflect.Kind`, as far as the switches distinguish it. -/
inductive GKind where
  | str | u32 | u64 | i32 | i64
  /-- struct, bool, slice, map, … -/
  | other
deriving DecidableEq, Repr

/-- Go types. -/
inductive GTy where
  /-- a type without methods: predeclared, or a literal like `[]byte` -/
  | basic (k : GKind)
  /-- `type name …` of a kind -/
  | defined (name : String) (k : GKind)
  | ptr (elem : GTy)
  /-- an interface type, and whether it has the methods of the two codec interfaces -/
  | iface (enc dec : Bool)
deriving DecidableEq, Repr

/-- Where a method is declared. -/
inductive Recv where
  | absent | value | pointer
deriving DecidableEq, Repr

/-- The methods `EncodeRecordAttribute` and `DecodeRecordAttribute` of the defined types. -/
structure MethodSet where
  enc : Recv := .absent
  dec : Recv := .absent

/-- A value in an `interface{}`: its dynamic type (`""` for the predeclared type) and content. -/
inductive DAny where
  | nil
  | val (dyn : String) (content : Any)
deriving DecidableEq, Repr

/-- Values of fields. -/
inductive GVal (X : Type) where
  | sc (content : Any)
  /-- a value of a defined type that is no scalar -/
  | st (x : X)
  | nilp
  | ptr (v : GVal X)
  | nilIface
  /-- an interface value holding a pointer to a value of a defined type -/
  | iface (name : String) (v : GVal X)
  /-- a value of a type literal that is no scalar -/
  | opaque

/-- The program outside the package: the defined types with their methods.  `decM` is what a pointer receiver holds after `DecodeRecordAttribute` on the zero value. -/
structure GEnv (X : Type) where
  methods : String → MethodSet
  encM : String → GVal X → Except EncErr DAny
  decM : String → DAny → Except String (GVal X)
  zero : String → X

/-- `t.Implements(recordAttributeEncoderType)`, encoder.go:67. -/
def implementsEnc {X : Type} (env : GEnv X) : GTy → Bool
  | .defined n _ => (env.methods n).enc = .value
  | .ptr (.defined n _) => (env.methods n).enc ≠ .absent
  | .iface e _ => e
  | _ => false

/-- `t.Implements(recordAttributeDecoderType)`, decoder.go:57. -/
def implementsDec {X : Type} (env : GEnv X) : GTy → Bool
  | .defined n _ => (env.methods n).dec = .value
  | .ptr (.defined n _) => (env.methods n).dec ≠ .absent
  | .iface _ d => d
  | _ => false

/-- The kinds of encoder.go:74 and decoder.go:64. -/
def GKind.scalar : GKind → Bool
  | .other => false
  | _ => true

/-- encoder.go:62-117: the implementations of `fieldEncoder`. -/
inductive GEncoder where
  | raw
  | pointer (sub : GEncoder)
  | attr
deriving DecidableEq, Repr

/-- encoder.go:66-81 `getFieldEncoder`; `none` is the error. -/
def gEncoder {X : Type} (env : GEnv X) : GTy → Option GEncoder
  | .ptr t => if implementsEnc env (.ptr t) then some .attr else (gEncoder env t).map .pointer
  | .basic k => if k.scalar then some .raw else none
  | .defined n k => if implementsEnc env (.defined n k) then some .attr else if k.scalar then some .raw else none
  | .iface e d => if implementsEnc env (.iface e d) then some .attr else none

/-- decoder.go:49-122: the implementations of `fieldDecoder`. -/
inductive GDecoder where
  | raw
  | pointer (sub : GDecoder)
  | attr
deriving DecidableEq, Repr

/-- decoder.go:53-71 `getFieldDecoder`. -/
def gDecoder {X : Type} (env : GEnv X) : GTy → Option GDecoder
  | .ptr t => if implementsDec env (.ptr t) then some .attr else (gDecoder env t).map .pointer
  | .basic k => if k.scalar then some .raw else none
  | .defined n k => if implementsDec env (.ptr (.defined n k)) || implementsDec env (.defined n k) then some .attr else if k.scalar then some .raw else none
  | .iface e d => if implementsDec env (.iface e d) then some .attr else none

/-- `reflect.Value.IsZero` of a scalar. -/
def zeroContent : Any → Bool
  | .str s => s == ""
  | .u32 n => n == 0
  | .u64 n => n == 0
  | .i32 n => n == 0
  | .i64 n => n == 0
  | _ => false

/-- The name of a type that is its own dynamic type. -/
def GTy.dyn : GTy → String
  | .defined n _ => n
  | _ => ""

/-- The Go zero value. -/
def GTy.zero {X : Type} (env : GEnv X) : GTy → GVal X
  | .basic .str | .defined _ .str => .sc (.str "")
  | .basic .u32 | .defined _ .u32 => .sc (.u32 0)
  | .basic .u64 | .defined _ .u64 => .sc (.u64 0)
  | .basic .i32 | .defined _ .i32 => .sc (.i32 0)
  | .basic .i64 | .defined _ .i64 => .sc (.i64 0)
  | .basic .other => .opaque
  | .defined n .other => .st (env.zero n)
  | .ptr _ => .nilp
  | .iface _ _ => .nilIface

/-- What an encoder gives: an attribute, an error, or a panic. -/
inductive EncRes where
  | ok (a : DAny)
  | notSet
  | fail (msg : String)
  | panic
deriving DecidableEq, Repr

def EncRes.of : Except EncErr DAny → EncRes
  | .ok a => .ok a
  | .error .notSet => .notSet
  | .error (.fail m) => .fail m

/-- encoder.go:86-117: the `encode` methods, on a value of the type. -/
def GEncoder.encode {X : Type} (env : GEnv X) : GEncoder → GTy → GVal X → EncRes
  -- 86-91
  | .raw, t, .sc c => if zeroContent c then .notSet else .ok (.val t.dyn c)
  -- 97-102
  | .pointer _, .ptr _, .nilp => .notSet
  | .pointer sub, .ptr t, .ptr v => sub.encode env t v
  -- 107-117; a method with a value receiver is called on what the pointer points to
  | .attr, .ptr _, .nilp => .notSet
  | .attr, .ptr (.defined n _), .ptr v => .of (env.encM n v)
  | .attr, .defined n _, v => .of (env.encM n v)
  -- 111-115: the value in the interface is nil
  | .attr, .iface _ _, .nilIface => .panic
  | .attr, .iface _ _, .iface n v => .of (env.encM n v)
  | _, _, _ => .fail "ill-typed"

/-- The content has the kind. -/
def GKind.holds : GKind → Any → Bool
  | .str, .str _ | .u32, .u32 _ | .u64, .u64 _ | .i32, .i32 _ | .i64, .i64 _ => true
  | _, _ => false

def GTy.kind : GTy → GKind
  | .basic k | .defined _ k => k
  | _ => .other

/-- decoder.go:76-122: the `decode` methods, on a field that holds the zero value of the type. -/
def GDecoder.decode {X : Type} (env : GEnv X) : GDecoder → GTy → DAny → Res (GVal X)
  -- 99-100: `reflect.ValueOf(nil).Type()`
  | .raw, _, .nil => .panic "reflect: call of reflect.Value.Type on zero Value"
  -- 100-103: of two types that are not interfaces, one of them a predeclared or defined scalar type, one is assignable to the other only if they are the same
  | .raw, t, .val dyn c => if t.dyn = dyn ∧ t.kind.holds c then .ok (.sc c) else .err "cannot assign value to type"
  -- 111-121
  | .pointer sub, .ptr t, a => (sub.decode env t a).map .ptr
  -- 77-90; what a value receiver does is done to a copy
  | .attr, .ptr (.defined n k), a =>
    match env.decM n a with
    | .error e => .err e
    | .ok v => .ok (.ptr (if (env.methods n).dec = .pointer then v else (GTy.defined n k).zero env))
  | .attr, .defined n k, a =>
    match env.decM n a with
    | .error e => .err e
    | .ok v => .ok (if (env.methods n).dec = .pointer then v else (GTy.defined n k).zero env)
  -- 85-88: the value in the interface is nil
  | .attr, .iface _ _, _ => .panic "expected <nil> to implement RecordAttributeUnmarshaler"
  | _, _, _ => .err "ill-typed"

/-! ## The simple model as a part of this one -/

/-- A field type of `Verif/Model/Encoding.lean`; `custom` types are structs. -/
def FTy.toGo : FTy → GTy
  | .str => .basic .str
  | .u32 => .basic .u32
  | .u64 => .basic .u64
  | .i32 => .basic .i32
  | .i64 => .basic .i64
  | .custom n => .defined n .other
  | .ptr t => .ptr t.toGo
  | .unsupported _ => .basic .other

def FVal.toGo {X : Type} : FVal X → GVal X
  | .str s => .sc (.str s)
  | .u32 n => .sc (.u32 n)
  | .u64 n => .sc (.u64 n)
  | .i32 n => .sc (.i32 n)
  | .i64 n => .sc (.i64 n)
  | .custom x => .st x
  | .nilp => .nilp
  | .ptr v => .ptr v.toGo
  | .opaque => .opaque

def Any.toGo : Any → DAny
  | .nil => .nil
  | a => .val "" a

/-- What the simple model knows of a dynamic value. -/
def DAny.simple : DAny → Any
  | .nil => .nil
  | .val dyn c => if dyn = "" then c else .other dyn

/-- The methods of codecs. -/
def CodecEnv.toGo {X : Type} (env : CodecEnv X) : GEnv X where
  methods := fun _ => { enc := .value, dec := .pointer }
  encM := fun n v => match v with
    | .st x => ((env n).enc x).map Any.toGo
    | _ => .error (.fail "ill-typed")
  decM := fun n a => ((env n).dec a.simple).map .st
  zero := fun n => (env n).zero

def FieldEncoder.toGo : FieldEncoder → GEncoder
  | .raw => .raw
  | .pointer sub => .pointer sub.toGo
  | .recordAttr _ => .attr

def FieldDecoder.toGo : FieldDecoder → GDecoder
  | .raw => .raw
  | .pointer sub => .pointer sub.toGo
  | .recordAttr _ => .attr

end Verif.Model
