import Verif.Model.Time

/-!
# The built-in record types (`/repo/base.go`, `/repo/records.go`)
-/
namespace Verif.Model
open Verif

/-- `*string`, `*uint64`, `*vanflow.Time` -/
def tStr : FTy := .ptr .str
def tU64 : FTy := .ptr .u64
def tTime : FTy := .ptr (.custom "vanflow.Time")

/-- A `*string` field with tag. -/
def fS (name tag : String) : FieldDecl := .plain name true tag tStr
/-- A `*uint64` field with tag. -/
def fU (name tag : String) : FieldDecl := .plain name true tag tU64

/-- base.go:25-29 `BaseRecord`. -/
def baseDecls : List FieldDecl :=
  [.plain "ID" true "1,required" .str, .plain "StartTime" true "3" tTime, .plain "EndTime" true "4" tTime]

/-- The embedded BaseRecord. -/
def base : FieldDecl := .embedded "BaseRecord" baseDecls

/-- The struct types registered by `init` (records.go:9-25), in order of their record code, with the fields of records.go:27-221. -/
def vanTypes : List (UInt32 × GoType) :=
  [ (0, .struct "SiteRecord"  -- records.go:27-36
      [base, fS "Location" "9", fS "Provider" "10", fS "Platform" "11", fS "Namespace" "12", fS "Name" "30",
       fS "Version" "52", fS "Policy" "53"]),
    (1, .struct "RouterRecord"  -- records.go:45-55
      [base, fS "Parent" "2", fS "Namespace" "12", fS "Mode" "13", fS "ImageName" "20", fS "ImageVersion" "21",
       fS "Hostname" "22", fS "Name" "30", fS "BuildVersion" "32"]),
    (2, .struct "LinkRecord"  -- records.go:64-71
      [base, fS "Parent" "2", fS "Mode" "13", fS "Name" "30", fU "LinkCost" "33", fS "Direction" "34"]),
    (3, .struct "ControllerRecord"  -- records.go:80-88
      [base, fS "Parent" "2", fS "ImageName" "20", fS "ImageVersion" "21", fS "Hostname" "22", fS "Name" "30",
       fS "BuildVersion" "32"]),
    (4, .struct "ListenerRecord"  -- records.go:97-108
      [base, fS "Parent" "2", fS "DestHost" "15", fS "Protocol" "16", fS "DestPort" "18", fS "Address" "19",
       fU "FlowCountL4" "40", fU "FlowCountL7" "41", fU "FlowRateL4" "42", fU "FlowRateL7" "43"]),
    (5, .struct "ConnectorRecord"  -- records.go:117-128
      [base, fS "Parent" "2", fS "DestHost" "15", fS "Protocol" "16", fS "DestPort" "18", fS "Address" "19",
       fU "FlowCountL4" "40", fU "FlowCountL7" "41", fU "FlowRateL4" "42", fU "FlowRateL7" "43"]),
    (6, .struct "FlowRecord"  -- records.go:137-154
      [base, fS "Parent" "2", fS "Counterflow" "5", fS "SourceHost" "14", fS "SourcePort" "17", fU "Octets" "23",
       fU "Latency" "24", fS "Reason" "29", fS "Trace" "31", fU "OctetRate" "35", fU "OctetsOut" "36",
       fU "OctetsUnacked" "37", fU "WindowClosures" "38", fU "WindowSize" "39", fS "Method" "27", fS "Result" "28"]),
    (7, .struct "ProcessRecord"  -- records.go:163-173
      [base, fS "Parent" "2", fS "Mode" "13", fS "SourceHost" "14", fS "ImageName" "20", fS "ImageVersion" "21",
       fS "Hostname" "22", fS "Name" "30", fS "Group" "46"]),
    (8, .struct "ImageRecord" [base]),  -- records.go:182-184
    (9, .struct "IngressRecord" [base]),  -- records.go:186-188
    (10, .struct "EgressRecord" [base]),  -- records.go:190-192
    (11, .struct "CollectorRecord" [base]),  -- records.go:194-196
    (12, .struct "ProcessGroupRecord" [base]),  -- records.go:198-200
    (13, .struct "HostRecord" [base, fS "Provider" "10", fS "Name" "30"]),  -- records.go:202-206
    (14, .struct "LogRecord"  -- records.go:215-221
      [base, fU "LogSeverity" "48", fS "LogText" "49", fS "SourceFile" "50", fU "SourceLine" "51"]) ]

/-- Registration of a list of types in order, stopping at the first panic (Go package `init`). -/
def registerAll (reg : Registry) : List (UInt32 × GoType) → Res Registry
  | [] => .ok reg
  | (c, t) :: ts => (mustRegister reg c t).bind fun reg' => registerAll reg' ts

/-- records.go:9-25 `init`. -/
def vanInit : Res Registry := registerAll Registry.empty vanTypes

/-- The registry after package initialisation. -/
def vanRegistry : Registry :=
  match vanInit with
  | .ok r => r
  | _ => Registry.empty

/-- base.go:48-50 `BaseRecord.Identity`: the ID field, at index path [0, 0] of every built-in type. -/
def recIdentity (r : RecVal GoTime) : String :=
  match r.mem [0, 0] with
  | .str s => s
  | _ => ""

/-- records.go: the types with a `GetTypeMeta` method (Image-, Ingress-, Egress-, Collector- and ProcessGroupRecord have none,
records.go:182-200, so they are not `vanflow.Record`s, base.go:20-23). -/
def recordKinds : List String :=
  ["SiteRecord", "RouterRecord", "LinkRecord", "ControllerRecord", "ListenerRecord", "ConnectorRecord",
   "FlowRecord", "ProcessRecord", "HostRecord", "LogRecord"]

end Verif.Model
