import Verif.Basic.Res
import Verif.Basic.GMap

/-!
# Model of package `encoding`

`/repo/encoding/encoding.go`, `/repo/encoding/encoder.go`, `/repo/encoding/decoder.go`.
-/
namespace Verif.Model
open Verif

/-- Dynamic values that can sit in an `interface{}` of an attribute set.  `other` stands for every further
dynamic type (bool, []byte, list, map, float, symbol, …), named by its Go type.
Simplification: the content of an `other` value is not modelled. -/
inductive Any where
  | nil
  | str (s : String)
  | u32 (n : UInt32)
  | u64 (n : UInt64)
  | i32 (n : Int32)
  | i64 (n : Int64)
  | other (goType : String)
deriving DecidableEq, Repr, Inhabited

/-- encoding/encoder.go:25 `type RecordAttributeSet = map[interface{}]interface{}` -/
abbrev Attrs := GMap Any Any

/-- encoding/encoding.go:51 `typeOfRecord = uint32(0)` as a map key. -/
def typeOfRecord : Any := .u32 0

/-- Errors of a field encoder: `ErrAttributeNotSet` (encoding/encoder.go:15-19) or anything else. -/
inductive EncErr where
  | notSet
  | fail (msg : String)
deriving DecidableEq, Repr

/-- A user type with `EncodeRecordAttribute` (value receiver, encoding/encoder.go:29-31) and
`DecodeRecordAttribute` (pointer receiver, encoding/decoder.go:15-17).  `X` is the carrier of all such
types.  `dec` is `DecodeRecordAttribute` started from the zero value (decode always works on `reflect.New` memory,
encoding/decoder.go:42).  Simplification: types implementing only one of the two interfaces, or the
encoder on a pointer receiver, are not modelled. -/
structure Codec (X : Type) where
  enc : X → Except EncErr Any
  dec : Any → Except String X
  zero : X

/-- The codecs in scope, by Go type name. -/
abbrev CodecEnv (X : Type) := String → Codec X

/-- Go types of struct fields as seen by `getFieldEncoder`/`getFieldDecoder`
(encoding/encoder.go:66-81, encoding/decoder.go:53-71). `unsupported` is every kind without encoder
(struct without codec, bool, slice, …). Simplification: named scalar types are not modelled. -/
inductive FTy where
  | str | u32 | u64 | i32 | i64
  | custom (name : String)
  | ptr (elem : FTy)
  | unsupported (kind : String)
deriving DecidableEq, Repr

/-- Values of struct fields. -/
inductive FVal (X : Type) where
  | str (s : String)
  | u32 (n : UInt32)
  | u64 (n : UInt64)
  | i32 (n : Int32)
  | i64 (n : Int64)
  | custom (x : X)
  | nilp
  | ptr (v : FVal X)
  | opaque
deriving DecidableEq

/-- The Go zero value of a type. -/
def FTy.zero {X : Type} (env : CodecEnv X) : FTy → FVal X
  | .str => .str ""
  | .u32 => .u32 0
  | .u64 => .u64 0
  | .i32 => .i32 0
  | .i64 => .i64 0
  | .custom c => .custom (env c).zero
  | .ptr _ => .nilp
  | .unsupported _ => .opaque

/-- Declaration of one struct field.
* `plain`: a named field with its `vflow` tag text (`""` when there is none);
* `embedded`: an anonymous field whose type has kind struct;
* `embeddedOther`: an anonymous field of another kind (embedded pointer, interface, named scalar). -/
inductive FieldDecl where
  | plain (name : String) (exported : Bool) (tag : String) (ty : FTy)
  | embedded (name : String) (fields : List FieldDecl)
  | embeddedOther (name : String)

/-- The dynamic type of the exemplar passed to `MustRegisterRecord` after `reflect.Indirect`. -/
inductive GoType where
  | struct (name : String) (fields : List FieldDecl)
  | nonStruct (name : String)

/-- reflect index path of a field. -/
abbrev Path := List Nat

/-- Type of the leaf field at a `reflect` index path (`v.Field(i).Field(j)…`). -/
def declAt : List FieldDecl → Path → Option FTy
  | _, [] => none
  | fs, i :: p =>
    match fs[i]?, p with
    | some (.plain _ _ _ ty), [] => some ty
    | some (.embedded _ gs), p => declAt gs p
    | _, _ => none

/-- Memory of a struct value: the leaf fields by index path. -/
abbrev Mem (X : Type) := Path → FVal X

/-- Memory after `reflect.New(t)` (encoding/decoder.go:42): every leaf has its zero value. -/
def zeroMem {X : Type} (env : CodecEnv X) (decls : List FieldDecl) : Mem X :=
  fun p => match declAt decls p with
    | some ty => ty.zero env
    | none => .opaque

/-! ## Field encoders and decoders -/

/-- encoding/encoder.go:62-117: the implementations of `fieldEncoder`. -/
inductive FieldEncoder where
  | raw
  | pointer (sub : FieldEncoder)
  | recordAttr (codec : String)

/-- encoding/encoder.go:66-81 `getFieldEncoder`. A type with a value-receiver codec implements the interface
itself, and so does a pointer to it (lines 67-69). -/
def getFieldEncoder : FTy → Res FieldEncoder
  | .custom c => .ok (.recordAttr c)
  | .ptr (.custom c) => .ok (.recordAttr c)
  | .ptr t => (getFieldEncoder t).map .pointer
  | .str | .u64 | .i64 | .u32 | .i32 => .ok .raw
  | .unsupported k => .err s!"unsupported attribute type {k}"

/-- `reflect.Value.IsZero` on scalars (encoding/encoder.go:87). -/
def FVal.isZeroScalar {X : Type} : FVal X → Bool
  | .str s => s == ""
  | .u32 n => n == 0
  | .u64 n => n == 0
  | .i32 n => n == 0
  | .i64 n => n == 0
  | _ => false

/-- `v.Interface()` of a scalar (encoding/encoder.go:90). -/
def FVal.toAny {X : Type} : FVal X → Any
  | .str s => .str s
  | .u32 n => .u32 n
  | .u64 n => .u64 n
  | .i32 n => .i32 n
  | .i64 n => .i64 n
  | _ => .other "unreachable"

/-- encoding/encoder.go:86-117: the `encode` methods of rawFieldEncoder, pointerEncoder and
recordAttrFieldEncoder. Ill-typed memory (impossible in Go) yields `fail`. -/
def FieldEncoder.encode {X : Type} (env : CodecEnv X) : FieldEncoder → FVal X → Except EncErr Any
  | .raw, v => if v.isZeroScalar then .error .notSet else .ok v.toAny
  | .pointer _, .nilp => .error .notSet
  | .pointer sub, .ptr v => sub.encode env v
  | .pointer _, _ => .error (.fail "ill-typed")
  | .recordAttr _, .nilp => .error .notSet
  | .recordAttr c, .ptr (.custom x) => (env c).enc x
  | .recordAttr c, .custom x => (env c).enc x
  | .recordAttr _, _ => .error (.fail "ill-typed")

/-- encoding/decoder.go:49-122: the implementations of `fieldDecoder`. -/
inductive FieldDecoder where
  | raw
  | pointer (sub : FieldDecoder)
  | recordAttr (codec : String)

/-- encoding/decoder.go:53-71 `getFieldDecoder`. -/
def getFieldDecoder : FTy → Res FieldDecoder
  | .custom c => .ok (.recordAttr c)
  | .ptr (.custom c) => .ok (.recordAttr c)
  | .ptr t => (getFieldDecoder t).map .pointer
  | .str | .u64 | .i64 | .u32 | .i32 => .ok .raw
  | .unsupported k => .err s!"unsupported attribute type {k}"

/-- encoding/decoder.go:95-105 `rawFieldDecoder.decode` for a field of type `ty`.
`reflect.ValueOf(nil).Type()` panics (line 100). `CanSet` holds for every field reached through
`reflect.New` and exported names. `AssignableTo` on the unnamed scalar types is type equality. -/
def rawDecode {X : Type} (ty : FTy) (attr : Any) : Res (FVal X) :=
  match attr, ty with
  | .nil, _ => .panic "reflect: call of reflect.Value.Type on zero Value"
  | .str s, .str => .ok (.str s)
  | .u32 n, .u32 => .ok (.u32 n)
  | .u64 n, .u64 => .ok (.u64 n)
  | .i32 n, .i32 => .ok (.i32 n)
  | .i64 n, .i64 => .ok (.i64 n)
  | _, _ => .err "cannot assign value to type"

/-- encoding/decoder.go:76-91 `recordAttrFieldDecoder.decode`: allocates through a nil pointer, then calls the
user's decoder. -/
def recordAttrDecode {X : Type} (env : CodecEnv X) (c : String) (ty : FTy) (attr : Any) : Res (FVal X) :=
  match (env c).dec attr with
  | .error e => .err e
  | .ok x => match ty with
    | .ptr _ => .ok (.ptr (.custom x))
    | _ => .ok (.custom x)

/-- The `decode` methods (encoding/decoder.go:76-122) on a field of type `ty` that still has its zero value:
the value stored, or an error/panic.  Lines 111-121: pointerDecoder allocates and recurses. -/
def FieldDecoder.decode {X : Type} (env : CodecEnv X) : FieldDecoder → FTy → Any → Res (FVal X)
  | .raw, ty, attr => rawDecode ty attr
  | .pointer sub, .ptr t, attr => (sub.decode env t attr).map .ptr
  | .pointer _, _, _ => .err "ill-typed"
  | .recordAttr c, ty, attr => recordAttrDecode env c ty attr

/-! ## Struct tags and type registration -/

/-- encoding/encoding.go:100-108 `type field` (plus its static type). -/
structure Field where
  name : String
  codepoint : UInt32
  identity : Bool
  index : Path
  ty : FTy
  encoder : FieldEncoder
  decoder : FieldDecoder

/-- `strings.Cut(tag, ",")` (encoding/encoding.go:119). -/
def cutComma : List Char → List Char × List Char
  | [] => ([], [])
  | c :: cs => if c = ',' then ([], cs) else ((c :: (cutComma cs).1), (cutComma cs).2)

/-- Decimal accumulation of `strconv.ParseUint(s, 10, 32)`; `none` on a non-digit. -/
def parseDigits : List Char → Nat → Option Nat
  | [], acc => some acc
  | c :: cs, acc =>
    if '0' ≤ c ∧ c ≤ '9' then parseDigits cs (10 * acc + (c.toNat - '0'.toNat)) else none

/-- `strconv.ParseUint(s, 10, 32)` (encoding/encoding.go:120): non-empty, digits only, below 2^32. -/
def parseUint32 (s : List Char) : Option UInt32 :=
  match s with
  | [] => none
  | _ => match parseDigits s 0 with
    | some n => if n < 2 ^ 32 then some (UInt32.ofNat n) else none
    | none => none

/-- encoding/encoding.go:110-133 `parseFieldOpts`: `ok none` for "no tag", otherwise the code and the
`required` flag; panics on malformed tags. -/
def parseFieldOpts (tag : String) : Res (Option (UInt32 × Bool)) :=
  if tag = "" then .ok none
  else
    let sCode := (cutComma tag.toList).1
    let sOpt := (cutComma tag.toList).2
    match parseUint32 sCode with
    | none => .panic "vflow struct tag parse error"
    | some code =>
      if sOpt = "required".toList then .ok (some (code, true))
      else if sOpt = [] then .ok (some (code, false))
      else .panic "vflow struct tag parse error: unexpected option"

mutual
/-- encoding/encoding.go:182-218 `fieldsForType`, the loop body for the field at position `i` of the struct at
index path `index`. -/
def fieldsForDecl (index : Path) (i : Nat) : FieldDecl → Res (List Field)
  | .embedded _ fs => fieldsForType (index ++ [i]) 0 fs
  | .embeddedOther _ => .ok []
  | .plain name exported tag ty =>
    if !exported then .ok []
    else match parseFieldOpts tag with
      | .panic m => .panic m
      | .err e => .err e
      | .ok none => .ok []
      | .ok (some (code, req)) =>
        match getFieldEncoder ty with
        | .ok enc => match getFieldDecoder ty with
          | .ok dec => .ok [{ name := name, codepoint := code, identity := req, index := index ++ [i],
                              ty := ty, encoder := enc, decoder := dec }]
          | _ => .panic "invalid vflow field decoder"
        | _ => .panic "invalid vflow field encoder"
/-- encoding/encoding.go:182-218 `fieldsForType`: the loop from position `i` on. -/
def fieldsForType (index : Path) (i : Nat) : List FieldDecl → Res (List Field)
  | [] => .ok []
  | d :: ds => (fieldsForDecl index i d).bind fun a => (fieldsForType index (i + 1) ds).map fun b => a ++ b
end

/-- encoding/encoding.go:54-58 `typeEncoding`. `decls` is the struct type `t`. -/
structure TypeEnc where
  tname : String
  decls : List FieldDecl
  codepoint : UInt32
  fields : List Field

/-- encoding/encoding.go:87-95: two fields with one code. -/
def hasRepeatedCode : List Field → List UInt32 → Bool
  | [], _ => false
  | f :: fs, seen => seen.contains f.codepoint || hasRepeatedCode fs (f.codepoint :: seen)

/-- encoding/encoding.go:78-98 `newEncodingForType`. -/
def newEncodingForType (codepoint : UInt32) : GoType → Res TypeEnc
  | .nonStruct _ => .panic "unsupported encoder type. Expects struct type"
  | .struct name decls =>
    (fieldsForType [] 0 decls).bind fun fields =>
      if hasRepeatedCode fields [] then .panic "struct field repeats vflow tag"
      else .ok { tname := name, decls := decls, codepoint := codepoint, fields := fields }

/-- encoding/encoding.go:43-47: the two global maps (guarded by a mutex; every function below takes it, so calls
are atomic). -/
structure Registry where
  encodings : GMap String TypeEnc
  decodings : GMap UInt32 TypeEnc

def Registry.empty : Registry := { encodings := [], decodings := [] }

/-- encoding/encoding.go:63-76 `MustRegisterRecord`. -/
def mustRegister (reg : Registry) (codepoint : UInt32) (record : GoType) : Res Registry :=
  match reg.decodings.get? codepoint with
  | some _ => .panic "cannot register record type: codepoint already in use"
  | none =>
    (newEncodingForType codepoint record).bind fun enc =>
      match reg.encodings.get? enc.tname with
      | some _ => .panic "cannot register same type more than once"
      | none => .ok { encodings := reg.encodings.set enc.tname enc,
                      decodings := reg.decodings.set codepoint enc }

/-! ## Encode -/

/-- A struct value of a named type. -/
structure RecVal (X : Type) where
  tname : String
  mem : Mem X

/-- The `any` argument of `Encode`/result of `Decode`: nil interface, struct value, pointer to struct, or nil pointer. -/
inductive GoRec (X : Type) where
  | nil
  | value (r : RecVal X)
  | pointer (r : RecVal X)
  | nilPointer (tname : String)

/-- encoding/encoding.go:135-158 `typeEncoding.encode`. -/
def encodeFields {X : Type} (env : CodecEnv X) : List Field → Mem X → Attrs → Res Attrs
  | [], _, acc => .ok acc
  | f :: fs, mem, acc =>
    match f.encoder.encode env (mem f.index) with
    | .error .notSet =>
      if f.identity then .err s!"missing or empty required field {f.name}"
      else encodeFields env fs mem acc
    | .error (.fail e) => .err s!"error encoding field {f.name}: {e}"
    | .ok .nil => encodeFields env fs mem acc
    | .ok out => encodeFields env fs mem (acc.set (.u32 f.codepoint) out)

/-- encoding/encoder.go:55-59: the tail of `Encode` once the type encoding is known. -/
def encodeWith {X : Type} (env : CodecEnv X) (enc : TypeEnc) (mem : Mem X) : Res Attrs :=
  (encodeFields env enc.fields mem []).map fun result => result.set typeOfRecord (.u32 enc.codepoint)

/-- encoding/encoder.go:36-60 `Encode`. -/
def encode {X : Type} (env : CodecEnv X) (reg : Registry) : GoRec X → Res Attrs
  | .nil => .err "cannot encode nil record"
  | .nilPointer _ => .panic "reflect: call of reflect.Value.Type on zero Value"
  | .value r | .pointer r =>
    match reg.encodings.get? r.tname with
    | none => .err "encode error: unregistered record type"
    | some enc => encodeWith env enc r.mem

/-! ## Decode -/

/-- Assignment to one leaf field. -/
def Mem.set {X : Type} (m : Mem X) (p : Path) (v : FVal X) : Mem X := fun q => if q = p then v else m q

/-- encoding/encoding.go:160-180 `typeEncoding.decode`. -/
def decodeFields {X : Type} (env : CodecEnv X) : List Field → Attrs → Mem X → Res (Mem X)
  | [], _, mem => .ok mem
  | f :: fs, attrs, mem =>
    match attrs.get? (.u32 f.codepoint) with
    | none =>
      if f.identity then .err s!"record attribute set missing required field {f.name}"
      else decodeFields env fs attrs mem
    | some obj => (f.decoder.decode env f.ty obj).bind fun v => decodeFields env fs attrs (mem.set f.index v)

/-- encoding/decoder.go:22-47 `Decode`; `none` is the nil map. Simplified: what `%T` and the record type put into the error
texts is left out. -/
def decode {X : Type} (env : CodecEnv X) (reg : Registry) : Option Attrs → Res (GoRec X)
  | none => .err "decode error: cannot decode nil record attribute set"
  | some attrs =>
    match attrs.get? typeOfRecord with
    | none => .err "decode error: record type attribute not present"
    | some (.u32 codepoint) =>
      match reg.decodings.get? codepoint with
      | none => .err "decode error: unknown record type"
      | some enc =>
        (decodeFields env enc.fields attrs (zeroMem env enc.decls)).map fun mem =>
          .pointer { tname := enc.tname, mem := mem }
    | some _ => .err "decode error: unexpected type for record type attribute"

end Verif.Model
