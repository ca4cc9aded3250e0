import Verif.Basic.Res

/-!
# The capture tool (`/repo/vancap/main.go`)

`Vancap.Run` as a function from everything its surroundings decide (the answers of the Kubernetes API, the port forward, the file system and
the HTTP server) to its result and the effects it has, in order.
-/
namespace Verif.Model
open Verif

/-- `strings.TrimLeft(s, cutset)`: removes leading characters that occur in `cutset`. -/
def trimLeft (s cutset : String) : String := String.ofList (s.toList.dropWhile fun c => cutset.toList.contains c)

/-- vancap/main.go:215: the host for the port forward. -/
def hostIP (host : String) : String := trimLeft host "htps:/"

/-- How the port forward begins (vancap/main.go:236-242). -/
inductive Forward where
  | ready | cancelled | failed
deriving DecidableEq, Repr

/-- What `Run` meets, in the order in which it asks. -/
structure VancapEnv where
  /-- main.go:100 the router deployment exists -/
  routerFound : Bool
  /-- main.go:162 the deployment is created -/
  createOk : Bool
  /-- main.go:193-199 the pods found, or an error -/
  pods : Option (List String)
  /-- main.go:202-207 not interrupted while waiting -/
  waited : Bool
  /-- main.go:209 -/
  roundTripperOk : Bool
  /-- main.go:225 -/
  forwarderOk : Bool
  forward : Forward
  /-- main.go:244 the output file can be created -/
  fileOk : Bool
  /-- main.go:250-254 the answer: status and body, or an error -/
  response : Option (Nat × String)
  /-- main.go:258 how much of the body arrives before an error; `none`: all of it -/
  copyFails : Option Nat

/-- Effects of a run. -/
inductive VancapEff where
  | created
  | deleted
  /-- the output file is made empty -/
  | truncated
  | wrote (body : String)
deriving DecidableEq, Repr

/-- vancap/main.go:193-264: from the pods on. -/
def vancapCapture (e : VancapEnv) : Res Unit × List VancapEff :=
  match e.pods with
  | none => (.err "failed to find deployment pod", [])
  | some [] => (.panic "index out of range", [])
  | some (_ :: _) =>
    if !e.waited then (.err "vancap interrupted", [])
    else if !e.roundTripperOk then (.err "failed to create round tripper", [])
    else if !e.forwarderOk then (.err "failed to create port forwarder", [])
    else
      match e.forward with
      | .cancelled => (.err "vancap interrupted", [])
      | .failed => (.err "vancap port forward error", [])
      | .ready =>
        if !e.fileOk then (.err "failed to create output file", [])
        else
          match e.response with
          | none => (.err "error requesting vanflow capture", [.truncated])
          | some (_, body) =>
            match e.copyFails with
            | some n => (.err "error writing capture file", [.truncated, .wrote (String.ofList (body.toList.take n))])
            | none => (.ok (), [.truncated, .wrote body])

/-- vancap/main.go:96-264 `Vancap.Run`: the result and the effects in order.  The deferred function (main.go:167-175) runs however the
function ends, also by a panic; `deleted` is its request to delete (with a context of its own), whatever the answer.  Waiting for the deployment
(main.go:177-190) has no effect on the rest: its error is dropped.  Not here: the goroutine of main.go:230-235 assigns
the variable `err` that the rest of the function uses; this function takes the port forward to stay up until the end (`Verif/Model/VancapForward.lean` does not). -/
def vancapRun (e : VancapEnv) : Res Unit × List VancapEff :=
  if !e.routerFound then (.err "skupper not installed", [])
  else if !e.createOk then (.err "error creating deployment", [])
  else
    let r := vancapCapture e
    (r.1, .created :: r.2 ++ [.deleted])

end Verif.Model
