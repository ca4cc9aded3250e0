import Verif.Model.Locks

/-!
# What "no data race" and "no lock is forgotten" mean
-/
namespace Verif.Spec
open Verif.Model

/-- The action reads or writes the variable. -/
def TouchesCell (a : LAct) (x : Cell) : Prop := a = .read x ∨ a = .write x

/-- A data race on `x`: two goroutines are about to touch it, one of them to write it, and nothing orders them. -/
def Race (ths : List LThread) (x : Cell) : Prop :=
  ∃ (i j : Nat) (hi hj : List (Mutex × LMode)) (a b : LAct) (ti tj : List LAct), i ≠ j ∧ ths[i]? = some ⟨hi, a :: ti⟩ ∧ ths[j]? = some ⟨hj, b :: tj⟩ ∧ TouchesCell a x ∧ TouchesCell b x ∧ (a = .write x ∨ b = .write x)

/-- Goroutines that begin, each with the calls it is going to make and a course these can take. -/
def begun (gs : List (List Call × List LAct)) : List LThread := gs.map (fun g => { todo := g.2 })

/-- Each goroutine follows its calls. -/
def Follows (gs : List (List Call × List LAct)) : Prop := ∀ g ∈ gs, Runs g.1 g.2

/-- What a handler of the commands touches without a lock of its own; `true`: it writes. -/
def handlerBare : ErrHandler → List (Cell × Bool)
  | .logs => []
  | .cancels p => [(.cancel p, false)]
  | .namesSource f => [(.src f, false)]

/-- What a call touches without holding the lock of the variable (or with it, where others do without); `true`: it may write. -/
def bare : Call → List (Cell × Bool)
  | .containerRun _ b h => (.backOff b, true) :: handlerBare h
  | .next l _ | .accept l _ | .send l _ => [(.currGen l, true)]
  | .fixtureRun f => [(.src f, true)]
  | .registerStore g => [(.reg g, true)]
  | .newDispatcher g => [(.reg g, false)]
  | .commandEnd p => [(.cancel p, true)]
  | .forward v | .captureEnd v => [(.err v, true)]
  | _ => []

/-- No two goroutines use the same link for anything but closing it, or the same BackOff; a registry is filled before it is used; and the other variables without a lock are not shared. -/
def Apart (gs : List (List Call × List LAct)) : Prop :=
  ∀ (i j : Nat) (gi gj : List Call × List LAct), i ≠ j → gs[i]? = some gi → gs[j]? = some gj → ∀ c ∈ gi.1, ∀ c' ∈ gj.1, ∀ x w w', (x, w) ∈ bare c → (x, w') ∈ bare c' → w = false ∧ w' = false

/-- A waiting writer keeps new readers out (`sync.RWMutex`): the strictest rule for when an action can be done. -/
def FreeStrict (ths : List LThread) (a : LAct) : Prop :=
  a.free ths ∧ ∀ l, a = .acquire l .shared → ∀ th ∈ ths, ∀ t, th.todo ≠ .acquire l .exclusive :: t

/-- How many times the lock is taken, minus how many times it is released. -/
def balance (l : Mutex) : List LAct → Int
  | [] => 0
  | .acquire l' _ :: t => (if l' = l then 1 else 0) + balance l t
  | .release l' :: t => (if l' = l then -1 else 0) + balance l t
  | _ :: t => balance l t

/-! ## Which variables a call reads and writes -/

/-- Some course of the call does the action. -/
def MayDo (c : Call) (a : LAct) : Prop := ∃ t, c.prog.Tr t ∧ a ∈ t

/-- The locks that can be held by several readers. -/
def IsRW : Mutex → Prop
  | .syncMap _ | .encoding => True
  | _ => False

/-- The variables a handler of the commands reads. -/
def handlerReads : ErrHandler → List Cell
  | .logs => []
  | .cancels p => [.cancel p]
  | .namesSource f => [.src f]

/-- The variables the call may read. -/
def readsOf : Call → List Cell
  | .onSessionError c => [.errorHandlers c]
  | .newLink c => [.sess c, .gen c]
  | .containerRun c _ h => [.hasNext c, .errorHandlers c] ++ handlerReads h
  | .next l c | .accept l c => [.sess c, .gen c, .hasNext c, .closed l, .curr l, .currGen l, .rcv l, .rcvGen l]
  | .send l c => [.sess c, .gen c, .hasNext c, .closed l, .curr l, .currGen l, .snd l, .sndGen l]
  | .closeLink l => [.rcv l]
  | .clientStart k | .listen k | .clientClose k => [.cleanup k]
  | .onHeartbeat k => [.heartbeatHandlers k]
  | .onRecord k => [.recordHandlers k]
  | .getHandlers k => [.heartbeatHandlers k, .recordHandlers k]
  | .discoveryGet d | .discoveryAdd d | .discoveryForget d | .discoveryList d | .discoveryObserve d | .discoveryLastSeen d => [.known d]
  | .mapGet m | .mapList m => [.items m]
  | .mapIndexValues m => [.indicies m]
  | .mapPatch m | .mapDelete m | .mapReplace m | .mapIndex m => [.items m, .indicies m]
  | .routerGet r => [.topics r]
  | .multicastSend u | .multicastSubscribe u => [.receivers u, .update u]
  | .register => [.encodings, .decodings]
  | .encode => [.encodings]
  | .decode => [.decodings]
  | .fixtureRun f => [.src f]
  | .serveFixture f => [.status f]
  | .serveFlows f ms => [.managers f, .flowsProcessed f] ++ ms.map .items ++ ms.map .indicies
  | .fakeFlow f => [.flowsProcessed f]
  | .registerStore g | .newDispatcher g => [.reg g]
  | .commandEnd p => [.cancel p]
  | .forward v | .captureEnd v => [.err v]

/-- The variables the call may write. -/
def writesOf : Call → List Cell
  | .onSessionError c => [.errorHandlers c]
  | .containerRun c b _ => [.sess c, .gen c, .hasNext c, .backOff b]
  | .next l _ | .accept l _ => [.curr l, .currGen l, .rcv l, .rcvGen l, .snd l]
  | .send l _ => [.curr l, .currGen l, .snd l, .sndGen l, .rcv l]
  | .closeLink l => [.closed l, .curr l, .rcv l, .snd l]
  | .clientStart k | .listen k => [.cleanup k]
  | .onHeartbeat k => [.heartbeatHandlers k]
  | .onRecord k => [.recordHandlers k]
  | .discoveryAdd d | .discoveryForget d | .discoveryObserve d | .discoveryLastSeen d => [.known d]
  | .mapPatch m | .mapDelete m | .mapReplace m => [.items m, .indicies m]
  | .routerGet r => [.topics r]
  | .multicastSubscribe u => [.receivers u, .update u]
  | .register => [.encodings, .decodings]
  | .fixtureRun f => [.status f, .managers f, .src f]
  | .fakeFlow f => [.flowsProcessed f]
  | .registerStore g => [.reg g]
  | .commandEnd p => [.cancel p]
  | .forward v | .captureEnd v => [.err v]
  | _ => []

/-- How often the variable is written. -/
def writesIn (t : List LAct) (x : Cell) : Nat := t.countP (fun a => decide (a = .write x))

/-- Variables that are always written together: a session with its generation and the channel of the next one; the status of the fixture server with its managers; the receivers of a
multicast with the channel of the next ones; the two tables of the registry. -/
def Pairs : Cell → Cell → Prop
  | .sess c, .gen c' | .sess c, .hasNext c' => c = c'
  | .status f, .managers f' => f = f'
  | .receivers u, .update u' => u = u'
  | .encodings, .decodings => True
  | _, _ => False

end Verif.Spec
