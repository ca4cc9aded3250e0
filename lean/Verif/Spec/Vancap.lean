import Verif.Model.Vancap

/-!
# Specification for the capture tool
-/
namespace Verif.Spec
open Verif Verif.Model

/-- A URL with its http or https scheme removed. -/
def withoutScheme (host : List Char) : List Char :=
  if "https://".toList.isPrefixOf host then host.drop 8
  else if "http://".toList.isPrefixOf host then host.drop 7
  else host

/-- What the output file holds after the effects, starting from `old`. -/
def fileAfter (old : String) : List VancapEff → String
  | [] => old
  | .truncated :: es => fileAfter "" es
  | .wrote b :: es => fileAfter (old ++ b) es
  | _ :: es => fileAfter old es

/-- Deployments left behind after the effects. -/
def leftBehind : List VancapEff → Int
  | [] => 0
  | .created :: es => leftBehind es + 1
  | .deleted :: es => leftBehind es - 1
  | _ :: es => leftBehind es

end Verif.Spec
