import Verif.Model.ToolMain
import Verif.Model.PerSource

/-!
# The command line of `vanflow-tool` (`/repo/cmd/vanflow-tool/main.go:19-75, 130-148`)

`flag.FlagSet.Parse` of Go 1.21 as remembered (its source is not in `/repo`), with the flags of the tool, and what `main` does with them.

Simplified: an argument is a list of characters (what is not UTF-8 is left out); usage and error messages are left out; the name of the program is there (main.go:20).
-/
namespace Verif.Model
open Verif

/-- The variables of the flags, main.go:21-34, with the defaults of main.go:47-61. -/
structure ToolVars where
  debug : Bool := false
  conn : ToolFlags := {}
  opts : ToolOpts := {}
deriving DecidableEq

/-- A flag of the tool. -/
inductive FlagName where
  | debug | messagingConfig | server | tlsVerify | ca | cert | key | flushOnDiscover | enableHeartbeats | enableRecords | includeFlowRecords | includeLogRecords
deriving DecidableEq, Repr

/-- main.go:47-61: the names (the keys of `FlagSet.formal`). -/
def FlagName.text : FlagName → String
  | .debug => "debug"
  | .messagingConfig => "messaging-config"
  | .server => "server"
  | .tlsVerify => "tls-verify"
  | .ca => "ca"
  | .cert => "cert"
  | .key => "key"
  | .flushOnDiscover => "flush-on-discover"
  | .enableHeartbeats => "enable-heartbeats"
  | .enableRecords => "enable-records"
  | .includeFlowRecords => "include-flow-records"
  | .includeLogRecords => "include-log-records"

def FlagName.all : List FlagName :=
  [.debug, .messagingConfig, .server, .tlsVerify, .ca, .cert, .key, .flushOnDiscover, .enableHeartbeats, .enableRecords, .includeFlowRecords, .includeLogRecords]

/-- flag.go `parseOne`: `f.formal[name]`. -/
def FlagName.find (name : List Char) : Option FlagName := FlagName.all.find? fun f => f.text.toList == name

/-- main.go:47-61: `BoolVar`, not `StringVar`. -/
def FlagName.isBool : FlagName → Bool
  | .debug | .tlsVerify | .flushOnDiscover | .enableHeartbeats | .enableRecords | .includeFlowRecords | .includeLogRecords => true
  | .messagingConfig | .server | .ca | .cert | .key => false

/-- `boolValue.Set` after `strconv.ParseBool`: the variable of a flag, main.go:47-61. -/
def ToolVars.setBool (v : ToolVars) (b : Bool) : FlagName → ToolVars
  | .debug => { v with debug := b }
  | .tlsVerify => { v with conn := { v.conn with tlsVerify := b } }
  | .flushOnDiscover => { v with opts := { v.opts with flush := b } }
  | .enableHeartbeats => { v with opts := { v.opts with heartbeat := b } }
  | .enableRecords => { v with opts := { v.opts with records := b } }
  | .includeFlowRecords => { v with opts := { v.opts with flow := b } }
  | .includeLogRecords => { v with opts := { v.opts with logs := b } }
  | _ => v

/-- `stringValue.Set`. -/
def ToolVars.setText (v : ToolVars) (s : String) : FlagName → ToolVars
  | .messagingConfig => { v with conn := { v.conn with messagingConfig := s } }
  | .server => { v with conn := { v.conn with server := s } }
  | .ca => { v with conn := { v.conn with ca := s } }
  | .cert => { v with conn := { v.conn with cert := s } }
  | .key => { v with conn := { v.conn with key := s } }
  | _ => v

/-- `strconv.ParseBool`. -/
def parseBool (s : String) : Option Bool :=
  if s = "1" ∨ s = "t" ∨ s = "T" ∨ s = "true" ∨ s = "TRUE" ∨ s = "True" then some true
  else if s = "0" ∨ s = "f" ∨ s = "F" ∨ s = "false" ∨ s = "FALSE" ∨ s = "False" then some false
  else none

/-- flag.go `parseOne`: the name and the value after the first equals sign that is not in front. -/
def splitFlag : List Char → List Char × Option (List Char)
  | [] => ([], none)
  | c :: cs => (c :: (cs.takeWhile (· != '=')), match cs.dropWhile (· != '=') with
      | [] => none
      | _ :: v => some v)

/-- How `Parse` ends: with the variables and the arguments left over, or in `os.Exit`. -/
inductive ParseRes where
  | ok (v : ToolVars) (rest : List (List Char))
  | exit (code : Nat)

/-- flag.go `parseOne`, from the name on: with the arguments after it; `some` the variables and the arguments left to be parsed. -/
def parseNamed (v : ToolVars) (name : List Char) (rest : List (List Char)) : Except Nat (ToolVars × List (List Char)) :=
  if name = [] ∨ name.head? = some '-' ∨ name.head? = some '=' then .error 2
  else
    let (n, value) := splitFlag name
    match FlagName.find n with
    | none => .error (if n = ['h', 'e', 'l', 'p'] ∨ n = ['h'] then 0 else 2)
    | some f =>
      if f.isBool then
        match value with
        | none => .ok (v.setBool true f, rest)
        | some x => match parseBool (String.ofList x) with
          | some b => .ok (v.setBool b f, rest)
          | none => .error 2
      else
        match value, rest with
        | some x, _ => .ok (v.setText (String.ofList x) f, rest)
        | none, x :: rest' => .ok (v.setText (String.ofList x) f, rest')
        | none, [] => .error 2

theorem parseNamed_length {v v' : ToolVars} {name : List Char} {rest rest' : List (List Char)} (h : parseNamed v name rest = .ok (v', rest')) : rest'.length ≤ rest.length := by
  unfold parseNamed at h
  simp only at h
  repeat' split at h
  all_goals first
    | cases h; done
    | (cases h; simp)

/-- flag.go `Parse` with `ExitOnError` and `parseOne`, up to the name. -/
def parseFlags (v : ToolVars) : List (List Char) → ParseRes
  | [] => .ok v []
  | ('-' :: c :: cs) :: rest =>
    if c = '-' ∧ cs = [] then .ok v rest
    else
      match _h : parseNamed v (if c = '-' then cs else c :: cs) rest with
      | .error code => .exit code
      | .ok (v', rest') => parseFlags v' rest'
  | s :: rest => .ok v (s :: rest)
termination_by args => args.length
decreasing_by
  have := parseNamed_length _h
  simp only [List.length_cons]
  omega

/-- main.go:130-138. -/
inductive MainCmd where
  | log | serve | fixture
deriving DecidableEq, Repr

/-- main.go:130-142: `none` is exit with status 1. -/
def MainCmd.ofName (name : List Char) : Option MainCmd :=
  if name = ['l', 'o', 'g'] then some .log
  else if name = ['s', 'e', 'r', 'v', 'e'] then some .serve
  else if name = ['f', 'i', 'x', 't', 'u', 'r', 'e'] then some .fixture
  else none

/-- How `main` begins: a command is run, or the process exits with a status. -/
inductive ToolStart where
  | run (cmd : MainCmd) (conn : ToolConn) (opts : ToolOpts)
  | exit (code : Nat)

/-- main.go:62-148. -/
def toolMain (fs : ToolFiles) (args : List (List Char)) : ToolStart :=
  match parseFlags {} args with
  | .exit code => .exit code
  | .ok v [name] => match toolConn fs v.conn with
    | none => .exit 1
    | some conn => match MainCmd.ofName name with
      | none => .exit 1
      | some cmd => .run cmd conn v.opts
  | .ok _ _ => .exit 1

end Verif.Model
