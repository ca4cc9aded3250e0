import Verif.Model.Records

/-!
# Struct tags (`f.Tag.Get("vflow")`, `/repo/encoding/encoding.go:115`)

`Model/Encoding` starts from the value of the `vflow` key.  Here the tag is the text between the backquotes of the
source, and the key is looked up in it the way `reflect.StructTag.Lookup` does.  Characters instead of bytes: every
character the lookup looks for is a single byte that does not occur inside a longer UTF-8 sequence.
-/
namespace Verif.Model
open Verif

/-- `reflect.StructTag.Lookup`: "Skip leading space". -/
def skipBlanks : List Char → List Char
  | [] => []
  | c :: cs => if c = ' ' then skipBlanks cs else c :: cs

/-- `reflect.StructTag.Lookup`: a byte of a key (`tag[i] > ' ' && tag[i] != ':' && tag[i] != '"' && tag[i] != 0x7f`). -/
def isKeyChar (c : Char) : Bool := 32 < c.toNat && c ≠ ':' && c ≠ '"' && c.toNat ≠ 127

/-- `reflect.StructTag.Lookup`: "Scan to colon": the longest prefix of key characters, and what follows. -/
def takeKey : List Char → List Char × List Char
  | [] => ([], [])
  | c :: cs => if isKeyChar c then (c :: (takeKey cs).1, (takeKey cs).2) else ([], c :: cs)

/-- `reflect.StructTag.Lookup`: "Scan quoted string to find value": after the opening quote, up to the first quote
that no backslash takes away; `none` without one.  The flag says that the previous character was such a backslash. -/
def takeQuoted : Bool → List Char → Option (List Char × List Char)
  | _, [] => none
  | true, c :: cs => (takeQuoted false cs).map fun p => (c :: p.1, p.2)
  | false, c :: cs =>
    if c = '"' then some ([], cs) else (takeQuoted (decide (c = '\\')) cs).map fun p => (c :: p.1, p.2)

/-- `strconv.Unquote` of a text between double quotes: no newline; a text without backslash is itself.  What a text
with backslashes stands for is the parameter `esc`. -/
def unquoteTag (esc : List Char → Option (List Char)) (q : List Char) : Option (List Char) :=
  if '\n' ∈ q then none else if '\\' ∈ q then esc q else some q

/-- `reflect.StructTag.Lookup`: the loop, with a bound on the number of rounds (each takes characters away, so the
length of the tag is enough). -/
def lookupTag (esc : List Char → Option (List Char)) (key : List Char) : Nat → List Char → Option (List Char)
  | 0, _ => none
  | n + 1, tag =>
    match takeKey (skipBlanks tag) with
    | (name, ':' :: '"' :: rest) =>
      if name = [] then none
      else match takeQuoted false rest with
        | none => none
        | some (q, rest') => if name = key then unquoteTag esc q else lookupTag esc key n rest'
    | _ => none

/-- `f.Tag.Get(vflowTag)` (encoding/encoding.go:115, the key: encoding/encoding.go:50): the value, or the empty string. -/
def tagGet (esc : List Char → Option (List Char)) (raw : String) : String :=
  match lookupTag esc "vflow".toList raw.toList.length raw.toList with
  | some v => String.ofList v
  | none => ""

/-- A field of a struct type with the tag as written (`reflect.StructField`). -/
inductive RawDecl where
  | plain (name : String) (exported : Bool) (tag : String) (ty : FTy)
  | embedded (name : String) (fields : List RawDecl)
  | embeddedOther (name : String)

mutual
/-- encoding/encoding.go:115 for one field: what `Model/Encoding` starts from. -/
def RawDecl.read (esc : List Char → Option (List Char)) : RawDecl → FieldDecl
  | .plain n e t ty => .plain n e (tagGet esc t) ty
  | .embedded n fs => .embedded n (readAll esc fs)
  | .embeddedOther n => .embeddedOther n
/-- The same for the fields of a struct. -/
def readAll (esc : List Char → Option (List Char)) : List RawDecl → List FieldDecl
  | [] => []
  | d :: ds => d.read esc :: readAll esc ds
end

/-- A `*string` field. -/
def rS (name tag : String) : RawDecl := .plain name true tag tStr
/-- A `*uint64` field. -/
def rU (name tag : String) : RawDecl := .plain name true tag tU64

/-- base.go:25-29 `BaseRecord`, with its tags as written. -/
def rawBase : RawDecl := .embedded "BaseRecord"
  [.plain "ID" true "vflow:\"1,required\"" .str, .plain "StartTime" true "vflow:\"3\"" tTime,
   .plain "EndTime" true "vflow:\"4\"" tTime]

/-- records.go:9-25 and records.go:27-221: the registered struct types with the tags as written. -/
def rawTypes : List (UInt32 × String × List RawDecl) :=
  [ (0, "SiteRecord",  -- records.go:27-36
      [rawBase, rS "Location" "vflow:\"9\"", rS "Provider" "vflow:\"10\"",
       rS "Platform" "vflow:\"11\"", rS "Namespace" "vflow:\"12\"", rS "Name" "vflow:\"30\"",
       rS "Version" "vflow:\"52\"", rS "Policy" "vflow:\"53\""]),
    (1, "RouterRecord",  -- records.go:45-55
      [rawBase, rS "Parent" "vflow:\"2\"", rS "Namespace" "vflow:\"12\"", rS "Mode" "vflow:\"13\"",
       rS "ImageName" "vflow:\"20\"", rS "ImageVersion" "vflow:\"21\"", rS "Hostname" "vflow:\"22\"",
       rS "Name" "vflow:\"30\"", rS "BuildVersion" "vflow:\"32\""]),
    (2, "LinkRecord",  -- records.go:64-71
      [rawBase, rS "Parent" "vflow:\"2\"", rS "Mode" "vflow:\"13\"", rS "Name" "vflow:\"30\"",
       rU "LinkCost" "vflow:\"33\"", rS "Direction" "vflow:\"34\""]),
    (3, "ControllerRecord",  -- records.go:80-88
      [rawBase, rS "Parent" "vflow:\"2\"", rS "ImageName" "vflow:\"20\"",
       rS "ImageVersion" "vflow:\"21\"", rS "Hostname" "vflow:\"22\"", rS "Name" "vflow:\"30\"",
       rS "BuildVersion" "vflow:\"32\""]),
    (4, "ListenerRecord",  -- records.go:97-108
      [rawBase, rS "Parent" "vflow:\"2\"", rS "DestHost" "vflow:\"15\"", rS "Protocol" "vflow:\"16\"",
       rS "DestPort" "vflow:\"18\"", rS "Address" "vflow:\"19\"", rU "FlowCountL4" "vflow:\"40\"",
       rU "FlowCountL7" "vflow:\"41\"", rU "FlowRateL4" "vflow:\"42\"", rU "FlowRateL7" "vflow:\"43\""]),
    (5, "ConnectorRecord",  -- records.go:117-128
      [rawBase, rS "Parent" "vflow:\"2\"", rS "DestHost" "vflow:\"15\"", rS "Protocol" "vflow:\"16\"",
       rS "DestPort" "vflow:\"18\"", rS "Address" "vflow:\"19\"", rU "FlowCountL4" "vflow:\"40\"",
       rU "FlowCountL7" "vflow:\"41\"", rU "FlowRateL4" "vflow:\"42\"", rU "FlowRateL7" "vflow:\"43\""]),
    (6, "FlowRecord",  -- records.go:137-154
      [rawBase, rS "Parent" "vflow:\"2\"", rS "Counterflow" "vflow:\"5\"",
       rS "SourceHost" "vflow:\"14\"", rS "SourcePort" "vflow:\"17\"", rU "Octets" "vflow:\"23\"",
       rU "Latency" "vflow:\"24\"", rS "Reason" "vflow:\"29\"", rS "Trace" "vflow:\"31\"",
       rU "OctetRate" "vflow:\"35\"", rU "OctetsOut" "vflow:\"36\"", rU "OctetsUnacked" "vflow:\"37\"",
       rU "WindowClosures" "vflow:\"38\"", rU "WindowSize" "vflow:\"39\"", rS "Method" "vflow:\"27\"",
       rS "Result" "vflow:\"28\""]),
    (7, "ProcessRecord",  -- records.go:163-173
      [rawBase, rS "Parent" "vflow:\"2\"", rS "Mode" "vflow:\"13\"", rS "SourceHost" "vflow:\"14\"",
       rS "ImageName" "vflow:\"20\"", rS "ImageVersion" "vflow:\"21\"", rS "Hostname" "vflow:\"22\"",
       rS "Name" "vflow:\"30\"", rS "Group" "vflow:\"46\""]),
    (8, "ImageRecord",  -- records.go:182-184
      [rawBase]),
    (9, "IngressRecord",  -- records.go:186-188
      [rawBase]),
    (10, "EgressRecord",  -- records.go:190-192
      [rawBase]),
    (11, "CollectorRecord",  -- records.go:194-196
      [rawBase]),
    (12, "ProcessGroupRecord",  -- records.go:198-200
      [rawBase]),
    (13, "HostRecord",  -- records.go:202-206
      [rawBase, rS "Provider" "vflow:\"10\"", rS "Name" "vflow:\"30\""]),
    (14, "LogRecord",  -- records.go:215-221
      [rawBase, rU "LogSeverity" "vflow:\"48\"", rS "LogText" "vflow:\"49\"",
       rS "SourceFile" "vflow:\"50\"", rU "SourceLine" "vflow:\"51\""]) ]

/-- The types as `Model/Encoding` gets them. -/
def readTypes (esc : List Char → Option (List Char)) : List (UInt32 × GoType) :=
  rawTypes.map fun t => (t.1, .struct t.2.1 (readAll esc t.2.2))

end Verif.Model
