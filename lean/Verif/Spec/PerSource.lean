import Verif.Model.PerSource

/-!
# What the tool should do with what it started for a source
-/
namespace Verif.Spec
open Verif Verif.Model

/-- Where the tool is to listen for a source: always at its address, at the other addresses by the flags and by the type of the source. -/
def ListensAt (o : ToolOpts) (i : Info) (a : String) : Prop :=
  a = i.address ∨ (o.flow = true ∧ a = i.address ++ ".flows") ∨ (o.logs = true ∧ a = i.address ++ ".logs") ∨
    (i.type = "CONTROLLER" ∧ a = i.address ++ ".heartbeats")

/-- How many of the containers started for sources are running. -/
def containers (s : ToolRes) : Nat := s.srcs.countP (·.ctr)

/-- How often the container of the `k`-th source ended: because the context did, or because it gave up. -/
def containerEnds (k : Nat) (evs : List TrEv) : Nat :=
  evs.countP fun
    | .ctrEnded k' | .gaveUp k' => k' == k
    | _ => false

/-- All listeners of a source have ended. -/
def ListenersEnded (r : SrcRes) : Prop := ∀ x ∈ r.client.listeners, x.pc = .finished

/-- Nothing of what was started for a source is left: its container has ended, its watch has closed the client, and no listener runs. -/
structure Released (r : SrcRes) : Prop where
  container : r.ctr = false
  closed : r.client.closers[0]? = some .returned
  listeners : ListenersEnded r

/-- Has the source a watch that has not forgotten it? -/
def Watched (r : SrcRes) : Bool := r.watch == .watching || r.watch == .cancelled

/-- The Discovered handler is about to start the watch of a source with this ID. -/
def aboutToWatch (id : String) (s : ToolRes) : Nat :=
  match s.handler with
  | .making k => if (s.srcs[k]?).any (·.source.id == id) then 1 else 0
  | _ => 0

/-- The number of places where a source with this ID is being looked after: it waits for the Discovered handler, or the handler is about to start its watch,
or it is watched. -/
def lookedAfter (id : String) (s : ToolRes) : Nat :=
  s.discovered.countP (·.id == id) + aboutToWatch id s + s.srcs.countP (fun r => Watched r && r.source.id == id)

/-- The calls on the client of the `k`-th source and its steps, in the order of a run. -/
def clientEvs (k : Nat) (evs : List TrEv) : List ClEv :=
  evs.flatMap fun
    | .watched k' => if k' = k then [.onHeartbeat 0, .onRecord 0] else []
    | .did k' .onRecord => if k' = k then [.onRecord 1] else []
    | .did k' .onHeartbeat => if k' = k then [.onHeartbeat 1] else []
    | .did k' (.listen _) => if k' = k then [.listen] else []
    | .forget k' | .watchEnded k' => if k' = k then [.close] else []
    | .client k' ev => if k' = k then [ev] else []
    | _ => []

/-- Steps of listeners and of `Close` only, no new messages. -/
def Winding (evs : List ClEv) : Prop := ∀ ev ∈ evs, ev.inner = true ∧ ∀ l m, ev ≠ .delivered l m

end Verif.Spec
