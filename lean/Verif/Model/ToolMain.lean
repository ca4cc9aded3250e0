/-!
# How `vanflow-tool` configures its connection (`/repo/cmd/vanflow-tool/main.go:64-128, 150-189`)

A function of the flags and the file system.  The command line is in `Verif/Model/CmdLine.lean`.  Not modelled: `MinVersion`.
-/
namespace Verif.Model

/-- main.go:150-155 `tlsConfig`. -/
structure ToolTls where
  ca : String := ""
  cert : String := ""
  key : String := ""
  verify : Bool := false
deriving DecidableEq, Repr

/-- main.go:157-162 `connectJSON`. -/
structure ConnectJSON where
  scheme : String := ""
  host : String := ""
  port : String := ""
  tls : ToolTls := {}
deriving DecidableEq, Repr

/-- What `main` asks the file system. -/
structure ToolFiles where
  /-- `os.ReadFile` -/
  read : String → Option String
  /-- `os.Stat` succeeds -/
  stat : String → Bool
  /-- `tls.LoadX509KeyPair`; a certificate is a number -/
  keyPair : String → String → Option Nat
  /-- `json.Unmarshal` of a connect.json -/
  connect : String → Option ConnectJSON

/-- The fields of `tls.Config` that `Parse` sets; `rootCAs` is the text of the file the pool is made from. -/
structure TlsConfig where
  insecureSkipVerify : Bool
  rootCAs : Option String
  certificates : List Nat
deriving DecidableEq, Repr

/-- main.go:164-189 `tlsConfig.Parse`. -/
def ToolTls.parse (c : ToolTls) (fs : ToolFiles) : Option TlsConfig :=
  let cas : Option (Bool × Option String) :=
    if c.verify then (fs.read c.ca).map fun file => (false, some file) else some (true, none)
  cas.bind fun (insecure, pool) =>
    if fs.stat c.cert || fs.stat c.key then
      (fs.keyPair c.cert c.key).map fun cert => { insecureSkipVerify := insecure, rootCAs := pool, certificates := [cert] }
    else some { insecureSkipVerify := insecure, rootCAs := pool, certificates := [] }

/-- main.go:48-54: the flags about the connection. -/
structure ToolFlags where
  messagingConfig : String := ""
  server : String := "amqp://localhost:5671"
  tlsVerify : Bool := true
  ca : String := ""
  cert : String := ""
  key : String := ""
deriving DecidableEq, Repr

/-- main.go:123-128: what the container factory is made with. -/
structure ToolConn where
  url : String
  tls : Option TlsConfig
  external : Bool
deriving DecidableEq, Repr

/-- main.go:76-101: the URL and the TLS configuration from the connect.json. -/
def toolMessaging (fs : ToolFiles) (fl : ToolFlags) : Option (String × Option TlsConfig) :=
  if fl.messagingConfig ≠ "" then
    (fs.read fl.messagingConfig).bind fun b => (fs.connect b).bind fun cfg =>
      let url := cfg.scheme ++ "://" ++ cfg.host ++ ":" ++ cfg.port
      if cfg.tls.ca ≠ "" then (cfg.tls.parse fs).map fun t => (url, some t) else some (url, none)
  else some (fl.server, none)

/-- main.go:76-128: `none` is exit with status 1. -/
def toolConn (fs : ToolFiles) (fl : ToolFlags) : Option ToolConn :=
  (toolMessaging fs fl).bind fun (url, tls) =>
    let tls' : Option (Option TlsConfig) :=
      if fl.cert ≠ "" then (ToolTls.parse { ca := fl.ca, cert := fl.cert, key := fl.key, verify := fl.tlsVerify } fs).map some else some tls
    tls'.map fun t => { url := url, tls := t, external := t.isSome }

end Verif.Model
