import Verif.Model.FixtureServer

/-!
# Specification: uploads to the fixture server
-/
namespace Verif.Spec
open Verif Verif.Model

/-- The last configuration received by the goroutine of `Start`. -/
def lastTook : List FxEv → Option FxConfig
  | [] => none
  | .took _ cfg :: evs => (lastTook evs).or (some cfg)
  | _ :: evs => lastTook evs

/-- How many were received. -/
def tookCount (evs : List FxEv) : Nat :=
  (evs.filter fun ev =>
    match ev with
    | .took _ _ => true
    | _ => false).length

/-- What an event means for the managers that have been started and not told to stop. -/
def liveStep (l : List (Nat × FixManager)) : FxEv → List (Nat × FixManager)
  | .started g m => l ++ [(g, m)]
  | .stop g => l.filter fun p => p.1 ≠ g
  | _ => l

/-- The managers that have been started and not told to stop, with the number of the upload they were made for. -/
def live (evs : List FxEv) : List (Nat × FixManager) := evs.foldl liveStep []

/-- What is to be seen of one request. -/
def about (t : Nat) : FxEv → Bool
  | .request t' | .body t' _ | .flowsBody t' _ | .took t' _ | .answered t' _ => t' = t
  | _ => false

/-- All there is to be seen of a request that is over: a question for the status, an upload that cannot be read, an upload, a question for the flows, a replay. -/
inductive Story (t : Nat) : List FxEv → Prop where
  | asked (st : FxStatus) : Story t [.request t, .answered t (.status st)]
  | bad (st : FxStatus) : Story t [.request t, .body t none, .answered t (.bad st)]
  | upload (st : FxStatus) (cfg : FxConfig) : Story t [.request t, .body t (some cfg), .took t cfg, .answered t (.status st)]
  | flows : Story t [.request t, .answered t .flows]
  | replay (ok : Bool) : Story t [.request t, .flowsBody t ok, .answered t .flows]

/-- Somebody asked for the status between a request and now: this is what it was. -/
def StatusSeen (evs : List FxEv) (s : Fx) (t : Nat) (st : FxStatus) : Prop :=
  ∃ evs1 evs2 s1, evs = evs1 ++ evs2 ∧ Fx.Run {} evs1 s1 ∧ Fx.Run s1 evs2 s ∧ FxEv.request t ∈ evs1 ∧ s1.status = st

/-- A handler of /flows has the lock and waits for its client: for the body of the request, or until the answer can be written. -/
def FlowsWaits (s : Fx) : Prop := ∃ t, s.lock = some (.req t) ∧ (s.reqs[t]? = some .flBody ∨ s.reqs[t]? = some .flAnswer)

/-- The client of a request for /flows does something. -/
def byFlowsClient (t : Nat) : FxEv → Bool
  | .flowsBody t' _ => t' = t
  | .answered t' a => t' = t && a == .flows
  | _ => false

end Verif.Spec
