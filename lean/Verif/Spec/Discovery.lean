import Verif.Model.Discovery

/-!
# Specification vocabulary for discovery: what can be read off the events of a run
-/
namespace Verif.Spec
open Verif Verif.Model

/-- The methods that have taken effect, in the order of the lock. -/
def effects (evs : List DiscEv) : List DiscOp := evs.filterMap fun ev => match ev with | .effect _ op => some op | _ => none

/-- The notes put in the channels, in order. -/
def notesSent (evs : List DiscEv) : List DiscNote := evs.filterMap fun ev => match ev with | .sent n => some n | _ => none

/-- The notes handlers were called with, in order. -/
def notesHandled (evs : List DiscEv) : List DiscNote := evs.filterMap fun ev => match ev with | .handled n => some n | _ => none

/-- The note the holder of the lock is about to send, if any. -/
def noteInFlight (s : Disc) : List DiscNote :=
  match s.lock with
  | none => []
  | some t => match s.pcs t with | .sending n => [n] | _ => []

def isDiscovered : DiscNote → Bool | .discovered _ => true | .forgotten _ => false

/-- For the notes about source `id`, in order: was it a discovery? -/
def noteFlags (id : String) (ns : List DiscNote) : List Bool :=
  ns.filterMap fun n => if n.info.id = id then some (isDiscovered n) else none

def discoveredOf (ns : List DiscNote) : List Info := ns.filterMap fun n => match n with | .discovered i => some i | _ => none
def forgottenOf (ns : List DiscNote) : List Info := ns.filterMap fun n => match n with | .forgotten i => some i | _ => none

/-- The time a method writes, if any. -/
def DiscOp.time : DiscOp → Option Int
  | .observe _ now => some now
  | .add i => some i.lastSeen
  | .lastSeen _ t => some t
  | _ => none

/-- The clock does not go back, and nobody writes a time later than what a following beacon reads from the clock. -/
def Timely (ops : List DiscOp) : Prop :=
  ops.Pairwise fun a b => ∀ bc now t, b = .observe bc now → DiscOp.time a = some t → t ≤ now

/-- A consumer that adds on Discovered and removes on Forgotten. -/
def consumerSet (ns : List DiscNote) : List String :=
  ns.foldl (fun known n => match n with
    | .discovered i => i.id :: known
    | .forgotten i => known.filter (· ≠ i.id)) []

/-- Only calls of methods begin; none takes effect, nothing is sent, no handler is called or returns. -/
def OnlyCalls (evs : List DiscEv) : Prop := ∀ ev ∈ evs, ∃ t op, ev = .call t op

/-- The holder of the lock waits for room in a channel that only the handler goroutine empties, and that goroutine has returned or waits for the lock (or
is the holder itself). -/
def Deadlocked (s : Disc) : Prop :=
  ∃ t n, s.lock = some t ∧ s.pcs t = .sending n ∧ ¬ s.room n ∧ (s.handler = .stopped ∨ s.pcs 0 ≠ .out)

end Verif.Spec
