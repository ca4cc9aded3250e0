import Verif.Model.CmdLine

/-!
# What a command line of `vanflow-tool` says
-/
namespace Verif.Spec
open Verif Verif.Model

/-- What is set on a command line, in order. -/
inductive Setting where
  | truth (flag : String) (b : Bool)
  | text (flag : String) (s : String)
deriving DecidableEq

/-- The flags that are on or off. -/
def truthFlags : List String :=
  ["debug", "tls-verify", "flush-on-discover", "enable-heartbeats", "enable-records", "include-flow-records", "include-log-records"]

/-- The flags that have a text. -/
def textFlags : List String := ["messaging-config", "server", "ca", "cert", "key"]

/-- How on and off are written. -/
def truthTexts : List (String × Bool) :=
  [("1", true), ("t", true), ("T", true), ("true", true), ("TRUE", true), ("True", true),
   ("0", false), ("f", false), ("F", false), ("false", false), ("FALSE", false), ("False", false)]

/-- `-flag` or `--flag`. -/
def FlagAlone (w : List Char) (f : String) : Prop := w = '-' :: f.toList ∨ w = '-' :: '-' :: f.toList

/-- `-flag=value` or `--flag=value`. -/
def FlagWith (w : List Char) (f : String) (x : List Char) : Prop := w = '-' :: (f.toList ++ '=' :: x) ∨ w = '-' :: '-' :: (f.toList ++ '=' :: x)

/-- The words of some settings. -/
inductive SettingWords : List (List Char) → List Setting → Prop where
  | nil : SettingWords [] []
  | on {w : List Char} {f : String} {ws : List (List Char)} {ss : List Setting} : f ∈ truthFlags → FlagAlone w f → SettingWords ws ss → SettingWords (w :: ws) (.truth f true :: ss)
  | truth {w : List Char} {f x : String} {b : Bool} {ws : List (List Char)} {ss : List Setting} : f ∈ truthFlags → FlagWith w f x.toList → (x, b) ∈ truthTexts → SettingWords ws ss →
      SettingWords (w :: ws) (.truth f b :: ss)
  | text {w x : List Char} {f : String} {ws : List (List Char)} {ss : List Setting} : f ∈ textFlags → FlagWith w f x → SettingWords ws ss →
      SettingWords (w :: ws) (.text f (String.ofList x) :: ss)
  /-- the value is the next word, whatever that is -/
  | next {w x : List Char} {f : String} {ws : List (List Char)} {ss : List Setting} : f ∈ textFlags → FlagAlone w f → SettingWords ws ss →
      SettingWords (w :: x :: ws) (.text f (String.ofList x) :: ss)

/-- A word that is taken for a flag. -/
def DashWord (w : List Char) : Prop := ∃ c cs, w = '-' :: c :: cs

/-- A command line: settings, `--` (which may be missing if no flag follows), and the rest. -/
def CommandLine (args : List (List Char)) (ss : List Setting) (rest : List (List Char)) : Prop :=
  ∃ ws, SettingWords ws ss ∧ (args = ws ++ ['-', '-'] :: rest ∨ (args = ws ++ rest ∧ ∀ w, rest.head? = some w → ¬ DashWord w))

/-- On or off: as said last, or by default. -/
def truthOf (f : String) (d : Bool) (ss : List Setting) : Bool :=
  ss.foldl (fun a s => match s with
    | .truth g b => if g = f then b else a
    | .text _ _ => a) d

/-- The text: as said last, or the default. -/
def textOf (f : String) (d : String) (ss : List Setting) : String :=
  ss.foldl (fun a s => match s with
    | .text g x => if g = f then x else a
    | .truth _ _ => a) d

/-- The variables of the tool have the values the settings say. -/
structure Means (ss : List Setting) (v : ToolVars) : Prop where
  debug : v.debug = truthOf "debug" false ss
  messagingConfig : v.conn.messagingConfig = textOf "messaging-config" "" ss
  server : v.conn.server = textOf "server" "amqp://localhost:5671" ss
  tlsVerify : v.conn.tlsVerify = truthOf "tls-verify" true ss
  ca : v.conn.ca = textOf "ca" "" ss
  cert : v.conn.cert = textOf "cert" "" ss
  key : v.conn.key = textOf "key" "" ss
  flush : v.opts.flush = truthOf "flush-on-discover" false ss
  heartbeat : v.opts.heartbeat = truthOf "enable-heartbeats" false ss
  records : v.opts.records = truthOf "enable-records" true ss
  flow : v.opts.flow = truthOf "include-flow-records" true ss
  logs : v.opts.logs = truthOf "include-log-records" true ss

/-- The commands of the usage text. -/
def commandNames : List (String × MainCmd) := [("log", .log), ("serve", .serve), ("fixture", .fixture)]

end Verif.Spec
