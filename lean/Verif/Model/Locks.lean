/-!
# Locks and shared variables (every `sync.Mutex` and `sync.RWMutex` of `/repo`)

What the goroutines of a process do with the locks and with the variables they share: each function that takes a lock, or that touches a variable which another goroutine may touch, is
transcribed to the locks it takes and releases and the variables it reads and writes, in program order, with a choice wherever the code branches and a repetition wherever it loops.
What is computed, and which branch is taken, is left out (other modules have it); so the executions here include all those of the code.

Simplifications.
Objects are numbers.  A variable that is only written before its object is shared with another goroutine (the fields set by constructors, `container.config`, `SyncIndexedMap.indexers`)
is left out, as are channels, `sync.Once`, `sync.Map`, `sync.WaitGroup` and atomics, which may be used by many goroutines at once.  The things that `store.Entry` and the handlers'
arguments point to (records) are left out; `Verif/Model/Alias.lean` has them.  A map and its elements are one variable.
Whatever does not touch a lock or one of the variables is `other`: it can always go on (so waiting in a channel operation, for the network, or in a callback is not seen here).
A handler called with a lock held (container.go:213-215, 227-229) is one of those of cmd/vanflow-tool.
-/
namespace Verif.Model

/-- The locks. -/
inductive Mutex where
  /-- `container.mu`, session/container.go:115 -/
  | container (c : Nat)
  /-- `link.mu`, session/container.go:281 -/
  | link (l : Nat)
  /-- `Client.lock`, eventsource/client.go:28 -/
  | client (k : Nat)
  /-- `Discovery.lock`, eventsource/discovery.go:20 -/
  | discovery (d : Nat)
  /-- `SyncIndexedMap.mu` (RWMutex), store/internal/cache.go:25 -/
  | syncMap (m : Nat)
  /-- `MockRouter.mu`, session/mock.go:59 -/
  | router (r : Nat)
  /-- `multicast.mu`, session/mock.go:83 -/
  | multicast (u : Nat)
  /-- `mu` (RWMutex), encoding/encoding.go:44 -/
  | encoding
  /-- `fixtureServer.lock`, cmd/vanflow-tool/fixture.go:73 -/
  | fixture (f : Nat)
deriving DecidableEq, Repr

/-- The shared variables. -/
inductive Cell where
  /-- session/container.go:116-119 -/
  | sess (c : Nat) | gen (c : Nat) | hasNext (c : Nat) | errorHandlers (c : Nat)
  /-- The state of a `backoff.BackOff`, session/container.go:79, 170. -/
  | backOff (b : Nat)
  /-- session/container.go:282-288 -/
  | closed (l : Nat) | currGen (l : Nat) | curr (l : Nat) | rcvGen (l : Nat) | rcv (l : Nat) | sndGen (l : Nat) | snd (l : Nat)
  /-- eventsource/client.go:29-31 -/
  | cleanup (k : Nat) | heartbeatHandlers (k : Nat) | recordHandlers (k : Nat)
  /-- `Discovery.state`, eventsource/discovery.go:21 -/
  | known (d : Nat)
  /-- store/internal/cache.go:26, 29 -/
  | items (m : Nat) | indicies (m : Nat)
  /-- session/mock.go:60 -/
  | topics (r : Nat)
  /-- session/mock.go:84-85 -/
  | receivers (u : Nat) | update (u : Nat)
  /-- encoding/encoding.go:45-46 -/
  | encodings | decodings
  /-- cmd/vanflow-tool/fixture.go:74-76 -/
  | status (f : Nat) | managers (f : Nat) | flowsProcessed (f : Nat)
  /-- `DispatchRegistry.reg`, store/dispatch.go:15 -/
  | reg (g : Nat)
  /-- The variable `cancel` of a command, cmd/vanflow-tool/serve.go:40, 199, cmd/vanflow-tool/fixture.go:25, 65. -/
  | cancel (p : Nat)
  /-- The loop variable `src`, cmd/vanflow-tool/fixture.go:105: one variable for all rounds (go.mod:3 says Go 1.21). -/
  | src (f : Nat)
  /-- The variable `err` of a capture, vancap/main.go:100. -/
  | err (v : Nat)
deriving DecidableEq, Repr

/-- How a lock is held: `RLock` or `Lock`. -/
inductive LMode where
  | shared | exclusive
deriving DecidableEq, Repr

/-- What a goroutine does. -/
inductive LAct where
  /-- `Lock` or `RLock` -/
  | acquire (l : Mutex) (m : LMode)
  /-- `Unlock` or `RUnlock` -/
  | release (l : Mutex)
  | read (x : Cell)
  | write (x : Cell)
  | other
deriving DecidableEq, Repr

/-! ## Programs -/

/-- Bodies of functions: sequences, branches, loops. -/
inductive LProg where
  | acts (as : List LAct)
  | seq (p q : LProg)
  | alt (p q : LProg)
  | star (p : LProg)
deriving Repr

namespace LProg

infixr:65 " ;; " => LProg.seq

/-- Nothing. -/
abbrev skip : LProg := .acts []
/-- `if … { p }` -/
abbrev opt (p : LProg) : LProg := .alt .skip p
/-- `p` once or more: a function that calls itself at its end. -/
abbrev plus (p : LProg) : LProg := .seq p (.star p)

/-- The courses a body can take. -/
inductive Tr : LProg → List LAct → Prop
  | acts {as} : Tr (.acts as) as
  | seq {p q t u} : Tr p t → Tr q u → Tr (.seq p q) (t ++ u)
  | altL {p q t} : Tr p t → Tr (.alt p q) t
  | altR {p q t} : Tr q t → Tr (.alt p q) t
  | starNil {p} : Tr (.star p) []
  | starCons {p t u} : Tr p t → Tr (.star p) u → Tr (.star p) (t ++ u)

end LProg

open LProg LAct LMode

/-! ## Containers (session/container.go) -/

/-- The handlers the commands give to `OnSessionError`. -/
inductive ErrHandler where
  /-- Only logs: serve.go:127-129. -/
  | logs
  /-- serve.go:113-120, fixture.go:55-62, log.go:46-53: may call `cancel()`. -/
  | cancels (p : Nat)
  /-- fixture.go:108-114: logs `src.Name`. -/
  | namesSource (f : Nat)
deriving DecidableEq, Repr

def ErrHandler.prog : ErrHandler → LProg
  | .logs => .acts [other]
  | .cancels p => .alt (.acts [read (.cancel p), other]) (.acts [other])
  | .namesSource f => .acts [read (.src f), other]

/-- container.go:125-129 -/
def onSessionErrorLk (c : Nat) : LProg :=
  .acts [acquire (.container c) exclusive, read (.errorHandlers c), write (.errorHandlers c), release (.container c)]

/-- container.go:131-144; the call to itself (142) repeats it. -/
def awaitNextSessionLk (c : Nat) : LProg :=
  .plus (.acts [acquire (.container c) exclusive, read (.sess c), read (.gen c), read (.hasNext c), release (.container c), other])

/-- container.go:183-186 -/
def publishSessionLk (c : Nat) : LProg :=
  .acts [acquire (.container c) exclusive, read (.hasNext c), write (.sess c), write (.gen c), write (.hasNext c), release (.container c)]

/-- container.go:212-216 and 225-229: call each handler, with the lock. -/
def notifyLk (c : Nat) (h : ErrHandler) : LProg :=
  .acts [acquire (.container c) exclusive, read (.errorHandlers c)] ;; .star h.prog ;; .acts [release (.container c)]

/-- container.go:172-208: dial, publish the session, serve it; `b.Reset()` at 200. -/
def attemptLk (c b : Nat) : LProg :=
  .acts [other] ;; .opt (publishSessionLk c ;; .acts [other] ;; .star (.alt (.acts [other]) (.acts [other, write (.backOff b)])))

/-- container.go:167-231: the goroutine of `Start`.  `RetryNotify` resets the BackOff, then attempts; after a failure it asks the BackOff for the delay and notifies. -/
def containerRunLk (c b : Nat) (h : ErrHandler) : LProg :=
  .acts [write (.backOff b)] ;; .star (attemptLk c b ;; .acts [write (.backOff b)] ;; notifyLk c h) ;; attemptLk c b ;; .opt (.acts [write (.backOff b)]) ;;
    .opt (notifyLk c h) ;; .acts [other]

/-- container.go:255-269; the fields of the new link are not shared yet. -/
def newLinkLk (c : Nat) : LProg :=
  .acts [acquire (.container c) exclusive, read (.sess c), read (.gen c), release (.container c)]

/-! ## Links (session/container.go) -/

/-- container.go:293-311 -/
def awaitSessionLk (l c : Nat) : LProg :=
  .acts [acquire (.link l) exclusive, read (.curr l), read (.currGen l), read (.closed l), release (.link l)] ;;
    .opt (awaitNextSessionLk c ;; .opt (.acts [acquire (.link l) exclusive, write (.curr l), write (.currGen l), release (.link l)]))

/-- container.go:341-356: line 349 reads `r.currGen` before the lock is taken at 352. -/
def handleErrorLk (l : Nat) : LProg :=
  .opt (.acts [read (.currGen l), other, acquire (.link l) exclusive, write (.curr l), write (.rcv l), write (.snd l), release (.link l)])

/-- container.go:358-370 -/
def getReceiverLk (l : Nat) : LProg :=
  .acts [acquire (.link l) exclusive, read (.rcv l)] ;; .opt (.acts [read (.rcvGen l), read (.currGen l)]) ;;
    .alt (.acts [read (.rcv l), read (.rcvGen l)])
      (.acts [read (.curr l), other] ;; .opt (.acts [read (.currGen l), write (.rcv l), write (.rcvGen l), read (.rcv l), read (.rcvGen l)])) ;;
    .acts [release (.link l)]

/-- container.go:372-384 -/
def getSenderLk (l : Nat) : LProg :=
  .acts [acquire (.link l) exclusive, read (.snd l)] ;; .opt (.acts [read (.sndGen l), read (.currGen l)]) ;;
    .alt (.acts [read (.snd l), read (.sndGen l)])
      (.acts [read (.curr l), other] ;; .opt (.acts [read (.currGen l), write (.snd l), write (.sndGen l), read (.snd l), read (.sndGen l)])) ;;
    .acts [release (.link l)]

/-- container.go:313-325 -/
def withReceiverLk (l c : Nat) : LProg :=
  awaitSessionLk l c ;; .alt (handleErrorLk l) (getReceiverLk l ;; .alt (handleErrorLk l) (.acts [other] ;; .opt (handleErrorLk l)))

/-- container.go:327-339 -/
def withSenderLk (l c : Nat) : LProg :=
  awaitSessionLk l c ;; .alt (handleErrorLk l) (getSenderLk l ;; .alt (handleErrorLk l) (.acts [other] ;; .opt (handleErrorLk l)))

/-- container.go:386-402 -/
def nextLk (l c : Nat) : LProg := .plus (withReceiverLk l c)

/-- container.go:404-426 -/
def acceptLk (l c : Nat) : LProg := withReceiverLk l c ;; .acts [other]

/-- container.go:428-445 -/
def sendLk (l c : Nat) : LProg := withSenderLk l c ;; .acts [other]

/-- container.go:447-457: the receiver is closed with the lock held. -/
def closeLinkLk (l : Nat) : LProg :=
  .acts [acquire (.link l) exclusive, write (.closed l), read (.rcv l), write (.curr l), write (.rcv l), write (.snd l), other, release (.link l)]

/-! ## Clients (eventsource/client.go) -/

/-- client.go:50-55 -/
def clientStartLk (k : Nat) : LProg := .acts [acquire (.client k) exclusive, read (.cleanup k), write (.cleanup k), release (.client k)]
/-- client.go:61-65 -/
def onHeartbeatLk (k : Nat) : LProg :=
  .acts [acquire (.client k) exclusive, read (.heartbeatHandlers k), write (.heartbeatHandlers k), release (.client k)]
/-- client.go:68-72 -/
def onRecordLk (k : Nat) : LProg :=
  .acts [acquire (.client k) exclusive, read (.recordHandlers k), write (.recordHandlers k), release (.client k)]
/-- client.go:74-82 -/
def getHandlersLk (k : Nat) : LProg :=
  .acts [acquire (.client k) exclusive, read (.recordHandlers k), read (.heartbeatHandlers k), release (.client k)]
/-- client.go:87-137, without the goroutine it starts -/
def listenLk (k : Nat) : LProg :=
  .acts [other, acquire (.client k) exclusive, read (.cleanup k), write (.cleanup k), other, release (.client k)]
/-- client.go:140-147: waits for the listeners with the lock held. -/
def clientCloseLk (k : Nat) : LProg :=
  .acts [acquire (.client k) exclusive, read (.cleanup k)] ;; .star (.acts [other]) ;; .acts [other, release (.client k)]

/-! ## Discovery (eventsource/discovery.go) -/

/-- discovery.go:90-98 -/
def discoveryGetLk (d : Nat) : LProg := .acts [acquire (.discovery d) exclusive, read (.known d), release (.discovery d)]
/-- discovery.go:101-110: sends to `d.discovered` with the lock held. -/
def discoveryAddLk (d : Nat) : LProg :=
  .acts [acquire (.discovery d) exclusive, read (.known d)] ;; .opt (.acts [write (.known d), other]) ;; .acts [release (.discovery d)]
/-- discovery.go:113-126 -/
def discoveryForgetLk (d : Nat) : LProg :=
  .acts [acquire (.discovery d) exclusive, read (.known d), write (.known d)] ;; .opt (.acts [other]) ;; .acts [release (.discovery d)]
/-- discovery.go:129-137 -/
def discoveryListLk (d : Nat) : LProg :=
  .acts [acquire (.discovery d) exclusive, read (.known d)] ;; .star (.acts [read (.known d)]) ;; .acts [release (.discovery d)]
/-- discovery.go:260-285 -/
def discoveryObserveLk (d : Nat) : LProg :=
  .acts [acquire (.discovery d) exclusive, other, read (.known d), write (.known d)] ;; .opt (.acts [other]) ;; .acts [release (.discovery d)]
/-- discovery.go:287-298 -/
def discoveryLastSeenLk (d : Nat) : LProg :=
  .acts [acquire (.discovery d) exclusive, read (.known d)] ;; .opt (.acts [write (.known d)]) ;; .acts [release (.discovery d)]

/-! ## Stores (store/internal/cache.go) -/

/-- cache.go:201-219 -/
def unindexLk (m : Nat) : LProg := .star (.acts [read (.indicies m)] ;; .star (.acts [read (.indicies m)] ;; .opt (.acts [write (.indicies m)])))
/-- cache.go:177-199 -/
def reindexLk (m : Nat) : LProg :=
  .opt (unindexLk m) ;; .star (.acts [read (.indicies m)] ;; .opt (.acts [write (.indicies m)]) ;; .star (.acts [read (.indicies m), write (.indicies m)]))
/-- cache.go:40-66 and 68-90 -/
def mapPatchLk (m : Nat) : LProg :=
  .acts [acquire (.syncMap m) exclusive, read (.items m), other] ;; .opt (.acts [write (.items m)] ;; reindexLk m) ;; .acts [release (.syncMap m)]
/-- cache.go:92-101 -/
def mapDeleteLk (m : Nat) : LProg :=
  .acts [acquire (.syncMap m) exclusive, read (.items m)] ;; .opt (.acts [write (.items m)] ;; unindexLk m) ;; .acts [release (.syncMap m)]
/-- cache.go:103-108 -/
def mapGetLk (m : Nat) : LProg := .acts [acquire (.syncMap m) shared, read (.items m), release (.syncMap m)]
/-- cache.go:110-126 -/
def mapReplaceLk (m : Nat) : LProg :=
  .acts [acquire (.syncMap m) exclusive] ;; .star (.acts [read (.items m)]) ;; .acts [write (.items m), write (.indicies m)] ;; .star (reindexLk m) ;;
    .acts [release (.syncMap m)]
/-- cache.go:128-136 -/
def mapListLk (m : Nat) : LProg := .acts [acquire (.syncMap m) shared, read (.items m)] ;; .star (.acts [read (.items m)]) ;; .acts [release (.syncMap m)]
/-- cache.go:138-151 -/
def mapIndexValuesLk (m : Nat) : LProg :=
  .acts [acquire (.syncMap m) shared] ;; .opt (.acts [read (.indicies m)] ;; .star (.acts [read (.indicies m)])) ;; .acts [release (.syncMap m)]
/-- cache.go:153-175 -/
def mapIndexLk (m : Nat) : LProg :=
  .acts [acquire (.syncMap m) shared] ;; .opt (.acts [read (.indicies m)] ;; .star (.acts [read (.indicies m)]) ;; .star (.acts [read (.items m)])) ;;
    .acts [release (.syncMap m)]

/-! ## The mock (session/mock.go) -/

/-- mock.go:71-80 -/
def routerGetLk (r : Nat) : LProg := .acts [acquire (.router r) exclusive, read (.topics r)] ;; .opt (.acts [write (.topics r)]) ;; .acts [release (.router r)]
/-- mock.go:92-110; the call to itself (106) repeats it. -/
def multicastSendLk (u : Nat) : LProg :=
  .plus (.acts [acquire (.multicast u) exclusive, read (.update u), read (.receivers u)] ;; .star (.acts [other]) ;; .acts [release (.multicast u), other])
/-- mock.go:112-118 -/
def multicastSubscribeLk (u : Nat) : LProg :=
  .acts [acquire (.multicast u) exclusive, read (.receivers u), write (.receivers u), read (.update u), write (.update u), release (.multicast u)]

/-! ## The registry of record types (encoding) -/

/-- encoding.go:63-76; a panic unlocks too (65). -/
def registerLk : LProg :=
  .acts [acquire .encoding exclusive, read .decodings] ;; .opt (.acts [other, read .encodings] ;; .opt (.acts [write .encodings, write .decodings])) ;;
    .acts [release .encoding]
/-- encoder.go:36-60 -/
def encodeLk : LProg := .acts [acquire .encoding shared] ;; .opt (.acts [read .encodings] ;; .opt (.acts [read .encodings])) ;; .acts [other, release .encoding]
/-- decoder.go:22-47 -/
def decodeLk : LProg := .opt (.acts [acquire .encoding shared, read .decodings, other, release .encoding])

/-! ## The fixture server (cmd/vanflow-tool/fixture.go) -/

/-- fixture.go:83-143: the goroutine of `Start`; the loop of 105-129 writes its variable `src` in each round. -/
def fixtureRunLk (f : Nat) : LProg :=
  .star (.acts [other, acquire (.fixture f) exclusive, write (.status f), write (.managers f), release (.fixture f)] ;; .star (.acts [write (.src f), read (.src f), other]) ;;
    .star (.acts [other]) ;; .acts [acquire (.fixture f) exclusive, write (.status f), write (.managers f), release (.fixture f)])
/-- fixture.go:146-184 -/
def serveFixtureLk (f : Nat) : LProg := .acts [acquire (.fixture f) exclusive, read (.status f), release (.fixture f), other]
/-- fixture.go:191-253: asks each of the stores `ms` with the lock held. -/
def serveFlowsLk (f : Nat) (ms : List Nat) : LProg :=
  .acts [acquire (.fixture f) exclusive, read (.managers f)] ;; ms.foldr (fun m p => mapIndexLk m ;; .acts [other] ;; p) .skip ;; .acts [other] ;;
    .star (.acts [read (.managers f)]) ;; .opt (.acts [read (.flowsProcessed f), other]) ;; .acts [release (.fixture f)]
/-- fixture.go:255-359: at its end, 256-260. -/
def fakeFlowLk (f : Nat) : LProg :=
  .acts [other, acquire (.fixture f) exclusive, read (.flowsProcessed f), write (.flowsProcessed f), release (.fixture f)]

/-! ## Functions without a lock -/

/-- dispatch.go:21-26 -/
def registerStoreLk (g : Nat) : LProg := .acts [read (.reg g)] ;; .opt (.acts [write (.reg g)]) ;; .acts [read (.reg g), write (.reg g)]
/-- dispatch.go:29-38 -/
def newDispatcherLk (g : Nat) : LProg := .plus (.acts [read (.reg g)])
/-- serve.go:197-203, fixture.go:63-69: `shutdownCtx, cancel := …` writes the variable that the handler of 116 or 58 reads. -/
def commandEndLk (p : Nat) : LProg := .acts [other, write (.cancel p), read (.cancel p), other]
/-- vancap/main.go:231-234 -/
def forwardLk (v : Nat) : LProg := .acts [other, write (.err v), read (.err v)] ;; .opt (.acts [read (.err v), other])
/-- vancap/main.go:236-264: 244, 251 and 258 write the variable `err` of 100. -/
def captureEndLk (v : Nat) : LProg :=
  .acts [other] ;; .opt (.acts [write (.err v), read (.err v), other] ;; .opt (.acts [write (.err v), read (.err v), other] ;; .opt (.acts [write (.err v), read (.err v), other])))

/-! ## What a goroutine can call -/

inductive Call where
  | onSessionError (c : Nat) | newLink (c : Nat) | containerRun (c b : Nat) (h : ErrHandler)
  /-- operations of the link `l` of the container `c` -/
  | next (l c : Nat) | accept (l c : Nat) | send (l c : Nat) | closeLink (l : Nat)
  | clientStart (k : Nat) | onHeartbeat (k : Nat) | onRecord (k : Nat) | getHandlers (k : Nat) | listen (k : Nat) | clientClose (k : Nat)
  | discoveryGet (d : Nat) | discoveryAdd (d : Nat) | discoveryForget (d : Nat) | discoveryList (d : Nat) | discoveryObserve (d : Nat) | discoveryLastSeen (d : Nat)
  | mapPatch (m : Nat) | mapDelete (m : Nat) | mapGet (m : Nat) | mapReplace (m : Nat) | mapList (m : Nat) | mapIndexValues (m : Nat) | mapIndex (m : Nat)
  | routerGet (r : Nat) | multicastSend (u : Nat) | multicastSubscribe (u : Nat)
  | register | encode | decode
  | fixtureRun (f : Nat) | serveFixture (f : Nat) | serveFlows (f : Nat) (ms : List Nat) | fakeFlow (f : Nat)
  | registerStore (g : Nat) | newDispatcher (g : Nat) | commandEnd (p : Nat) | forward (v : Nat) | captureEnd (v : Nat)
deriving DecidableEq, Repr

def Call.prog : Call → LProg
  | .onSessionError c => onSessionErrorLk c | .newLink c => newLinkLk c | .containerRun c b h => containerRunLk c b h
  | .next l c => nextLk l c | .accept l c => acceptLk l c | .send l c => sendLk l c | .closeLink l => closeLinkLk l
  | .clientStart k => clientStartLk k | .onHeartbeat k => onHeartbeatLk k | .onRecord k => onRecordLk k | .getHandlers k => getHandlersLk k
  | .listen k => listenLk k | .clientClose k => clientCloseLk k
  | .discoveryGet d => discoveryGetLk d | .discoveryAdd d => discoveryAddLk d | .discoveryForget d => discoveryForgetLk d | .discoveryList d => discoveryListLk d
  | .discoveryObserve d => discoveryObserveLk d | .discoveryLastSeen d => discoveryLastSeenLk d
  | .mapPatch m => mapPatchLk m | .mapDelete m => mapDeleteLk m | .mapGet m => mapGetLk m | .mapReplace m => mapReplaceLk m | .mapList m => mapListLk m
  | .mapIndexValues m => mapIndexValuesLk m | .mapIndex m => mapIndexLk m
  | .routerGet r => routerGetLk r | .multicastSend u => multicastSendLk u | .multicastSubscribe u => multicastSubscribeLk u
  | .register => registerLk | .encode => encodeLk | .decode => decodeLk
  | .fixtureRun f => fixtureRunLk f | .serveFixture f => serveFixtureLk f | .serveFlows f ms => serveFlowsLk f ms | .fakeFlow f => fakeFlowLk f
  | .registerStore g => registerStoreLk g | .newDispatcher g => newDispatcherLk g | .commandEnd p => commandEndLk p | .forward v => forwardLk v
  | .captureEnd v => captureEndLk v

/-- A goroutine makes any calls, one after the other. -/
inductive Runs : List Call → List LAct → Prop
  | nil : Runs [] []
  | cons {c cs t u} : c.prog.Tr t → Runs cs u → Runs (c :: cs) (t ++ u)

/-! ## Goroutines together -/

/-- A goroutine: the locks it holds and what it still does. -/
structure LThread where
  held : List (Mutex × LMode) := []
  todo : List LAct
deriving DecidableEq, Repr

/-- The locks held after an action. -/
def LAct.after (held : List (Mutex × LMode)) : LAct → List (Mutex × LMode)
  | .acquire l m => (l, m) :: held
  | .release l => held.filter (fun p => p.1 ≠ l)
  | _ => held

/-- `Lock` waits while anyone holds the lock, `RLock` while anyone holds it exclusively; other actions do not wait. -/
def LAct.free (ths : List LThread) : LAct → Prop
  | .acquire l m => ∀ th ∈ ths, ∀ p ∈ th.held, p.1 = l → m = .shared ∧ p.2 = .shared
  | _ => True

/-- One goroutine does its next action. -/
inductive LStep : List LThread → List LThread → Prop
  | step {ths i held a todo} : ths[i]? = some ⟨held, a :: todo⟩ → a.free ths → LStep ths (ths.set i ⟨a.after held, todo⟩)

inductive LReach (ths : List LThread) : List LThread → Prop
  | refl : LReach ths ths
  | step {ths' ths''} : LReach ths ths' → LStep ths' ths'' → LReach ths ths''

end Verif.Model
