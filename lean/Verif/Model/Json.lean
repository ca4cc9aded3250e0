import Verif.Model.Rfc3339
import Verif.Model.Fixture

/-!
# `encoding/json` for the values `vanflow-tool` writes and reads

`/repo/cmd/vanflow-tool/api.go`, `serve.go:64, 74, 107`, `fixture.go:159, 378`.  Modelled is the step between Go values and JSON values.  The step between JSON values and text (quoting,
white space, the escapes of strings) is trusted to lose nothing; a Go string that is not UTF-8 is not representable here.

Rules of `encoding/json` used: a struct is an object with one member per exported field, by field name, the fields of embedded structs among them; reading ignores members without a field and prefers
an exact name over one equal up to case (`fold`); `null` sets a pointer or map to nil and leaves other values as they are; a value of the wrong kind is an error.  No two fields of the structs here have
the same name, so the rule for such fields is left out.
-/
namespace Verif.Model
open Verif

/-- JSON values.  Numbers other than integers are `other`. -/
inductive Json where
  | null
  | bool (b : Bool)
  | num (n : Int)
  | other
  | str (s : String)
  | arr (items : List Json)
  | obj (members : List (String × Json))

/-! ## Reading structs -/

/-- The fields of a struct: name, and what a member does to the struct. -/
abbrev JFields (σ : Type) := List (String × (σ → Json → Option σ))

/-- decode.go `object`: the field for a member. -/
def jsonField {σ : Type} (fold : String → String) (fs : JFields σ) (name : String) : Option (σ → Json → Option σ) :=
  match fs.find? (fun f => f.1 = name) with
  | some f => some f.2
  | none => (fs.find? (fun f => fold f.1 = fold name)).map Prod.snd

/-- decode.go `object`: the loop over the members. -/
def jsonMembers {σ : Type} (fold : String → String) (fs : JFields σ) : List (String × Json) → σ → Option σ
  | [], s => some s
  | (k, j) :: ms, s =>
    match jsonField fold fs k with
    | none => jsonMembers fold fs ms s
    | some set => (set s j).bind (jsonMembers fold fs ms)

/-- Reading a value into a struct. -/
def jsonStruct {σ : Type} (fold : String → String) (fs : JFields σ) (s : σ) : Json → Option σ
  | .null => some s
  | .obj ms => jsonMembers fold fs ms s
  | _ => none

/-- Reading into a string. -/
def jsonString (old : String) : Json → Option String
  | .null => some old
  | .str s => some s
  | _ => none

/-- Reading into a `time.Time`. -/
def jsonTime (old : GoTime) : Json → Option GoTime
  | .null => some old
  | .str s => parseTime s
  | _ => none

/-! ## Records -/

/-- A field of a record type. -/
structure JField where
  name : String
  path : Path
  ty : FTy
deriving DecidableEq

mutual
/-- encode.go `typeFields`, one declared field. -/
def jsonFieldsDecl (index : Path) (i : Nat) : FieldDecl → List JField
  | .embedded _ fs => jsonFieldsType (index ++ [i]) 0 fs
  | .embeddedOther _ => []
  | .plain name exported _ ty => if exported then [{ name := name, path := index ++ [i], ty := ty }] else []
/-- encode.go `typeFields`. -/
def jsonFieldsType (index : Path) (i : Nat) : List FieldDecl → List JField
  | [] => []
  | d :: ds => jsonFieldsDecl index i d ++ jsonFieldsType index (i + 1) ds
end

/-- The JSON value of a field; `none` when it has none (a time outside the years 0 to 9999). -/
def jsonOfVal : FVal GoTime → Option Json
  | .str s => some (.str s)
  | .u32 n => some (.num n.toNat)
  | .u64 n => some (.num n.toNat)
  | .i32 n => some (.num n.toInt)
  | .i64 n => some (.num n.toInt)
  | .custom t => (formatTime t).map .str
  | .nilp => some .null
  | .ptr v => jsonOfVal v
  | .opaque => none

/-- decode.go `indirect`: where a pointer points to, a new value if it is nil. -/
def pointee (t : FTy) : FVal GoTime → FVal GoTime
  | .ptr v => v
  | _ => t.zero vanEnv

/-- Reading into a field of a type, which holds `old`. -/
def jsonVal : FTy → FVal GoTime → Json → Option (FVal GoTime)
  | .ptr _, _, .null => some .nilp
  | .ptr t, old, j =>
    (jsonVal t (pointee t old) j).map .ptr
  | .unsupported _, _, _ => none
  | _, old, .null => some old
  | .str, _, .str s => some (.str s)
  | .u32, _, .num n => if 0 ≤ n ∧ n < 2 ^ 32 then some (.u32 (UInt32.ofNat n.toNat)) else none
  | .u64, _, .num n => if 0 ≤ n ∧ n < 2 ^ 64 then some (.u64 (UInt64.ofNat n.toNat)) else none
  | .i32, _, .num n => if -2 ^ 31 ≤ n ∧ n < 2 ^ 31 then some (.i32 (Int32.ofInt n)) else none
  | .i64, _, .num n => if -2 ^ 63 ≤ n ∧ n < 2 ^ 63 then some (.i64 (Int64.ofInt n)) else none
  | .custom _, _, .str s => (parseTime s).map .custom
  | _, _, _ => none

/-- `json.Marshal` of a list of named values. -/
def jsonMembersOf : List (String × Option Json) → Option (List (String × Json))
  | [] => some []
  | (k, v) :: ms => v.bind fun j => (jsonMembersOf ms).map fun r => (k, j) :: r

/-- `json.Marshal` of a struct value of the given type. -/
def jsonOfStruct (decls : List FieldDecl) (m : Mem GoTime) : Option Json :=
  (jsonMembersOf ((jsonFieldsType [] 0 decls).map fun f => (f.name, jsonOfVal (m f.path)))).map .obj

/-- `json.Unmarshal` into a new struct of the given type. -/
def jsonToStruct (fold : String → String) (decls : List FieldDecl) (j : Json) : Option (Mem GoTime) :=
  jsonStruct fold ((jsonFieldsType [] 0 decls).map fun f => (f.name, fun m j => (jsonVal f.ty (m f.path) j).map (m.set f.path))) (zeroMem vanEnv decls) j

/-- The fields of a built-in record type. -/
def declsOf (name : String) : Option (List FieldDecl) :=
  vanTypes.findSome? fun t =>
    match t.2 with
    | .struct n ds => if n = name then some ds else none
    | _ => none

/-- A record in an interface value. -/
def jsonOfRecord : GoRec GoTime → Option Json
  | .value r | .pointer r => (declsOf r.tname).bind fun ds => jsonOfStruct ds r.mem
  | _ => some .null

/-! ## Entries (store/store.go:15-41, base.go:11-14, cmd/vanflow-tool/api.go) -/

def jsonOfSource (r : SourceRef) : Json := .obj [("APIVersion", .str r.apiVersion), ("Type", .str r.type), ("Name", .str r.name)]

def sourceFields : JFields SourceRef :=
  [("APIVersion", fun r j => (jsonString r.apiVersion j).map fun s => { r with apiVersion := s }),
   ("Type", fun r j => (jsonString r.type j).map fun s => { r with type := s }),
   ("Name", fun r j => (jsonString r.name j).map fun s => { r with name := s })]

def jsonOfTypeMeta (m : TypeMeta) : Json := .obj [("APIVersion", .str m.apiVersion), ("Type", .str m.type)]

def typeMetaFields : JFields TypeMeta :=
  [("APIVersion", fun r j => (jsonString r.apiVersion j).map fun s => { r with apiVersion := s }),
   ("Type", fun r j => (jsonString r.type j).map fun s => { r with type := s })]

/-- A `map[string]string`; nil and empty maps are one here.  `encoding/json` sorts the members by key. -/
def jsonOfMap (m : GMap String String) : Json := if m = [] then .null else .obj (m.map fun p => (p.1, .str p.2))

/-- Reading into a map: members are added. -/
def jsonMapMembers : List (String × Json) → GMap String String → Option (GMap String String)
  | [], m => some m
  | (k, j) :: ms, m => (jsonString "" j).bind fun s => jsonMapMembers ms (m.set k s)

def jsonMap (m : GMap String String) : Json → Option (GMap String String)
  | .null => some []
  | .obj ms => jsonMapMembers ms m
  | _ => none

def jsonOfMetadata (m : Metadata) : Option Json :=
  (jsonMembersOf [("Source", some (jsonOfSource m.source)), ("UpdatedAt", (formatTime m.updatedAt).map .str), ("Annotations", some (jsonOfMap m.annotations))]).map .obj

def metadataFields (fold : String → String) : JFields Metadata :=
  [("Source", fun m j => (jsonStruct fold sourceFields m.source j).map fun s => { m with source := s }),
   ("UpdatedAt", fun m j => (jsonTime m.updatedAt j).map fun t => { m with updatedAt := t }),
   ("Annotations", fun m j => (jsonMap m.annotations j).map fun a => { m with annotations := a })]

/-- A `store.Entry`. -/
def jsonOfEntry (e : Entry (GoRec GoTime)) : Option Json :=
  (jsonMembersOf [("Meta", jsonOfMetadata e.md), ("TypeMeta", some (jsonOfTypeMeta e.typeMeta)), ("Record", jsonOfRecord e.record)]).map .obj

/-- A list of values. -/
def jsonAll {A B : Type} (f : A → Option B) : List A → Option (List B)
  | [] => some []
  | a :: as => (f a).bind fun b => (jsonAll f as).map fun bs => b :: bs

/-- cmd/vanflow-tool/api.go:10-14 `RecordsResponse` without error and references. -/
def jsonOfResponse (es : List (Entry (GoRec GoTime))) : Option Json := (jsonAll jsonOfEntry es).map fun l => .obj [("data", .arr l)]

/-- cmd/vanflow-tool/api.go:25-30 `PartialEntry`: the record stays as it is; `none` when there is no such member. -/
def partialFields (fold : String → String) : JFields (PartialEntry (Option Json)) :=
  [("Meta", fun p j => (jsonStruct fold (metadataFields fold) p.md j).map fun m => { p with md := m }),
   ("TypeMeta", fun p j => (jsonStruct fold typeMetaFields p.typeMeta j).map fun m => { p with typeMeta := m }),
   ("Record", fun p j => some { p with record := some j })]

/-- The zero value of `PartialEntry`. -/
def partialZero : PartialEntry (Option Json) := { md := Metadata.zero, typeMeta := ⟨"", ""⟩, record := none }

/-- cmd/vanflow-tool/api.go:21-23 `ReplaceRequest`.  Of two members "data" the second counts; simplified: Go reads its entries
into the entries of the first. -/
def requestFields (fold : String → String) : JFields (List (PartialEntry (Option Json))) :=
  [("data", fun _ j =>
    match j with
    | .null => some []
    | .arr l => jsonAll (jsonStruct fold (partialFields fold) partialZero) l
    | _ => none)]

/-- cmd/vanflow-tool/fixture.go:157-159: `none` is an answer with status 400. -/
def jsonToRequest (fold : String → String) (j : Json) : Option (List (PartialEntry (Option Json))) := jsonStruct fold (requestFields fold) [] j

/-- cmd/vanflow-tool/fixture.go:377-378: `json.Unmarshal(partial.Record, record)`; no text at all is an error. -/
def jsonUnmarshal (fold : String → String) (rtype : String) : Option Json → Option (Mem GoTime)
  | none => none
  | some j => (declsOf rtype).bind fun ds => jsonToStruct fold ds j

/-- cmd/vanflow-tool/fixture.go:146-184: the whole request; `none` is an answer with status 400. -/
def uploadJson (fold : String → String) (flows logs : Bool) (body : Json) : Option (Res (GMap SourceRef (Cache (GoRec GoTime)))) :=
  (jsonToRequest fold body).map (serveFixture (jsonUnmarshal fold) flows logs)

end Verif.Model
