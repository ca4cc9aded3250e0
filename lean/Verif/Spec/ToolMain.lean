import Verif.Model.ToolMain

/-!
# Specification of the connection of `vanflow-tool`
-/
namespace Verif.Spec
open Verif.Model

/-- The TLS settings in force, as the user would read them: those of the flags when a certificate is given there, otherwise those of the connect.json when it names a CA. -/
def settingsInForce (fs : ToolFiles) (fl : ToolFlags) : Option ToolTls :=
  if fl.cert ≠ "" then some { ca := fl.ca, cert := fl.cert, key := fl.key, verify := fl.tlsVerify }
  else if fl.messagingConfig = "" then none
  else ((fs.read fl.messagingConfig).bind fs.connect).bind fun c => if c.tls.ca = "" then none else some c.tls

/-- The server's certificate is checked against the CA in the file named by `t`: it is the text of that file, and checking is on. -/
def ChecksServer (fs : ToolFiles) (t : ToolTls) (c : TlsConfig) : Prop :=
  c.insecureSkipVerify = false ∧ ∃ text, fs.read t.ca = some text ∧ c.rootCAs = some text

end Verif.Spec
