# Formal model of c-kruse/vanflow in Lean 4

Source: `/repo` (Go, read as text; never built or run here). Model: `/verif/lean/Verif/`.

## Layout

| directory | content |
|---|---|
| `Verif/Basic/` | outcome type `Res` (ok / error / panic), Go maps as association lists |
| `Verif/Model/` | the model, function by function, every definition citing file:lines in `/repo` |
| `Verif/Spec/` | small independent specifications (what the English property says), not using model helpers |
| `Verif/Proofs/` | helper lemmas and invariants |
| `Verif/Props/` | the property theorems `Cxx_…` and, beside each, an `example` showing that its hypotheses are met by a concrete non-trivial case |

## Modelling decisions

* **Outcomes.** A Go function that may return an error or panic is a total function into `Res α = ok | err | panic`.
  A `panic` is never silently turned into an error; several findings are about panics.
* **Maps.** Go maps are association lists without repeated keys (`GMap`, with well-formedness as a separate
  invariant).  Go's random iteration order is covered by stating results up to permutation/membership or after sorting.
* **Strings** are Lean `String`s. Go strings are byte sequences; on valid UTF-8 byte order equals code point order.
* **Integers.** `uint32/uint64/int32/int64` attribute values are Lean's fixed-width types. Entry versions are unbounded `Int`
  (the overflow after 2^63 writes of one entry is outside the model); ETag/continue token encoding truncates exactly as Go's conversions do.
* **Error texts.** An error is told from a success and from a panic, and the kinds of errors from each other. The texts are shortened: the
  Go types that `%T` puts into them (messages.go:214, 219, 227, encoding/decoder.go:33) are left out, so nothing is proved about that part.
* **Time.** `time.Time` is (Unix seconds, nanoseconds); location and monotonic reading are not modelled.
  `UnixMicro` wraps at 64 bits as in Go. `time.Now()` is an input of each operation.
* **Reflection.** A Go struct type is a tree of field declarations; a struct value is its memory: a function from
  `reflect` index path to field value. Named scalar types, types with one codec method and interfaces are in `Model/FieldTypes` only.
* **Goroutines, channels, locks, timers** are explicit labelled transition systems; theorems quantify over all label
  sequences (schedules). Blocking is "no step enabled".
* **AMQP library** (`go-amqp`), base64 of the standard library, `cenkalti/backoff`: base64 and little-endian packing are
  modelled; the AMQP library is environment nondeterminism (any call may succeed, fail with any error, or stay pending);
  `backoff.RetryNotify` v4.2.1 and `ExponentialBackOff` are modelled from their documentation (untimed in `Model/Container`, timed in `Model/Backoff`).
* **Panics.** An unrecovered panic ends the process: in the transition systems no step follows it.
* **Liveness** is stated as "some step of the goroutine is enabled" plus a measure that decreases (no fairness axiom), or, for negations, as a state
  that no run leaves.  A claim about every run also holds of a program that does nothing; so `Props/Enabled`, `Props/Release` and `Props/LoopEnds` prove that from every state of a
  kind there is a run that closes, releases, ends or reports.  Every constructor of every step relation is used in some theorem (checked by a script over the compiled proofs).

## What is modelled

| source in `/repo` | module | left out or simplified |
|---|---|---|
| `encoding/*.go` | `Model/Encoding`, `Model/StructTag` | types other than scalars and types with both codec methods (those are in `Model/FieldTypes`); `strconv.Unquote` of tag values with backslashes (a parameter) |
| `getFieldEncoder`, `getFieldDecoder` and their results, for all field types | `Model/FieldTypes` | contains the encoders of `Model/Encoding` (`C98_simple_*`) |
| `base.go`, `records.go` | `Model/Time`, `Model/Records`, `Model/Base` | time zones, monotonic clock |
| `messages.go` | `Model/Messages` | AMQP wire format (that is the next row) |
| messages between `Send` and `Receive` | `Model/Wire` | go-amqp v1.0.4 as remembered (it is not in `/repo`); AMQP types vanflow has no use for are refused; strings are valid UTF-8 (the library refuses others); frames and transfers |
| `store/internal/*.go` | `Model/IndexedMap` | version overflow after 2^63 writes |
| `store/cache.go`, `patcher.go`, `store.go`, `dispatch.go` | `Model/Store` | sharing of maps and records with the caller (that is `Model/Alias`); `sort.Slice` is a stable sort (keys are distinct); a failing key function returns the empty key; indexers do not panic |
| the comparisons of attributes in `patcher.go:39-48`, `manager.go:115-132` | `Model/Compare` | Go's `!=` on dynamic values; structs, arrays and interfaces as attributes; of the store only the records by key |
| `store/etag.go`, `continue.go` | `Model/Token` | |
| locking and event handlers of the store | `Model/StoreThreads` | each call is one critical section followed by its handler calls |
| `eventsource/manager.go` | `Model/Manager` (records), `Model/Keepalive` (beacons, heartbeats) | the log output; the two parts share nothing but the context; that a failed receive is accepted and queued as a flush is the event `receiveError`, in `Model/RecvLoop` it is derived |
| `eventsource/client.go`, `flush.go` | `Model/Client` | see its header; misuse panics of `sync.WaitGroup` (they are in the next row) |
| `Listen` and `Close` of `client.go` with `sync.WaitGroup` | `Model/WaitGroup` | sync/waitgroup.go of Go 1.21 as remembered (it is not in `/repo`); messages, handlers, contexts; one call of `Close` |
| `eventsource/discovery.go` | `Model/Discovery`, `Model/Watch` | the two are separate systems; the other is a single step of the environment |
| `session/container.go`, `factory.go` | `Model/Container`, `Model/Backoff` | durations in the first; everything but the retry limit in the second; `Start` is called once (more often in `Model/Starts`, which leaves out closing links, error handlers and overlapping operations of a link); attaching a link, closing a receiver, and publishing a session and closing the previous connection are single steps (they take time in `Model/ContainerMu`, whose runs are shown to be runs of `Model/Container`); the unlocked read of `currGen` (container.go:349) is atomic |
| `session/mock.go` | `Model/Mock` | |
| `cmd/vanflow-tool/main.go` | `Model/ToolMain` (connection), `Model/ConnectText` (the connect.json), `Model/CmdLine` (flags, choice of the command) | the `flag` package of Go 1.21 as remembered; messages, `MinVersion` |
| `cmd/vanflow-tool/serve.go`, `api.go` | `Model/FixtureStore`, `Model/Serve`, `Model/Discovered` | HTTP plumbing; JSON is "encodable or not" (but see the JSON row) |
| `cmd/vanflow-tool/log.go` | `Model/LogOnly`, `Model/Discovered` | |
| `cmd/vanflow-tool/fixture.go` | `Model/Fixture` (what is loaded and replayed), `Model/FixtureServer` (its goroutines, lock and channel), `Model/Replay` (replays and manager queues) | JSON decoding is a parameter (but see the JSON row); durations |
| JSON of `api.go`, `Time` of `base.go` | `Model/Json`, `Model/JsonText`, `Model/LogText`, `Model/Rfc3339` | `encoding/json` as remembered (it is not in `/repo`); texts are valid UTF-8; no limit on nesting; of numbers that are not integers only the syntax; of time texts only the RFC 3339 ones are accepted; two `data` members in one object |
| `cmd/vanflow-tool/serve.go:183-203`, `fixture.go:24-69` | `Model/ToolServer` | `http.Server` as documented; the container is reduced to its end |
| `vancap/main.go` | `Model/Vancap` (without the port forward goroutine), `Model/VancapForward` (from there on, with it) | Kubernetes answers are inputs; reads and writes of `err` are atomic |
| every use of `sync.Mutex`, `sync.RWMutex` | `Model/Locks` | only locks and shared variables, no values: branches and loops are arbitrary; initialisation before sharing, channels, `Once`, `WaitGroup`, atomics and records pointed to are left out |
| `http.HandleFunc` calls of serve.go and fixture.go, `http.ServeMux` | `Model/Routes` | the mux of Go 1.21 (go.mod says `go 1.21`) as remembered: its source is not in `/repo`; no hosts, no CONNECT, no query |
| `sendKeepalives` and `watch.run` together | `Model/Alive` | the two transition systems with one clock; a send lasts at most `send`, a tick is late by at most `tick`, a delivery takes at most `deliver`; the network loses nothing |
| manager, mock router, client and stores together | `Spec/EndToEnd` | the three transition systems with their events tied; the others send nothing to the source's address, other listeners get no record messages, the stores are written by this client only |
| that system with any number of collectors | `Spec/Collectors` | as above; the collectors share nothing but the router |
| that system with `listenFlushes`, and with the flush goroutine of `serve.go` | `Spec/Request`, `Spec/FirstFlush` | errors of the flush receiver other than the end of the context; the contexts of the two Sends may end at any time |
| what a flush may send without telling anything new | `Spec/Told` | a condition on the events of the manager, used by C106 |
| the keepalive goroutine, the router, `Discovery.Run` and the discovery as one system | `Spec/Announce` | heartbeats are not tied to the router; the context of a Send may end at any time |
| the Discovered and Forgotten handlers of `serve.go`, `log.go`, with what they start | `Model/PerSource` | the container is running or not; the watch forgets when it likes; the discovery's channels have room; of the flush goroutine only its registrations |
| the receive loops of `client.go`, `manager.go`, `discovery.go` on a link | `Model/RecvLoop` | the content of messages and what is done with them |
| `watch.run` on a machine that is not slow | `Model/WatchTimed` | the runs of `Model/Watch` in which a timer or tick is late by at most `late` |

## Trusted base

* Lean 4.33.0 kernel; axioms at most `propext`, `Classical.choice`, `Quot.sound` (listed per theorem by
  `lean/Verif/Axioms.lean` when built). No own axioms, no `sorry`, no `native_decide`/`bv_decide`.
* Faithfulness of the hand-written model to the Go text (citations in each definition).
* The documented behaviour of Go's standard library, go-amqp and backoff where the model refers to it.
* Not modelled: AMQP frames, links and flow control, TLS and SASL handshakes, HTTP, the Kubernetes API, logging, GC/memory, `sync` internals,
  time zones.

## Testing the theorems

`seeded/LOG.jsonl` has one line per wrong program tried: the definition edited, the edit, the claim it breaks, the theorems that failed to build and, where
a claim survived, the theorem that was tightened.

## Plan per property

"neg" = the code violates the property; the negation is proved with a witness and the part that does hold is proved as `…_partial`.

| id | model | proof |
|---|---|---|
| C01 | reflective encoder/decoder over arbitrary struct type trees | field-list induction with a memory-separation invariant |
| C02 | same | per-field inversion, then lookup characterisation |
| C03 | same | fold induction |
| C04 | same | fold congruence |
| C05 | same, `Res.panic` for `reflect.ValueOf(nil).Type()` | neg (null attribute) + partial: panics only on null |
| C06 | registry state machine | invariant over registration sequences |
| C07 | same as C01 | neg (pointer to zero) + partial: non-zero values |
| C08 | `GoTime`, `UnixMicro` with wrap-around | arithmetic |
| C09-C11 | AMQP message structure, `Decode` | case analysis |
| C12 | `decodeRecords`, client step | neg + partial: all-or-nothing, in order |
| C13-C20 | `SyncIndexedMap`, `objectCache` step function over all operations | refinement to a spec map; index invariant |
| C15 | version discipline | neg (delete/re-add ABA) + partial: no delete in between |
| C16 | little-endian + base64 | round trip by induction on groups |
| C21-C25 | `recordPatcher.Patch` over the vanflow registry | refinement to attribute override; C23 neg (OnAdd on error) |
| C26-C29 | `applySelector`, `sort.Slice`, tokens | sortedness + window; walk induction; C26 neg (negative offset panics), C28 neg, C29 neg |
| C30 | dispatcher | fold |
| C31 | `SourceRef.String` | neg + partial (no dots) |
| C32 | key function on `Entry{Record}` | neg (fixture store) + partial |
| C33 | two-phase (write, callback) thread model | neg + partial (multiset) |
| C34 | aliasing mutation step | neg + partial: callers that do not write to maps of stored entries |
| C35-C36 | `diffRecord`; source-to-collector pipeline | lookup algebra; C35/C36 neg for cleared attributes |
| C37-C39 | `serve` LTS | invariants |
| C40 | `sendRecords` | neg + partial |
| C41-C42, C67 | keepalive LTS with clock and tickers | invariants; C41 neg (spins when cancelled early), C42 neg (wrong context) |
| C43-C45 | client LTS | induction; C43 neg (decoding panics), C44 neg (deadlock, double close) |
| C46-C51 | discovery state machine and LTS | invariants; C47-C51 neg |
| C52-C53 | watch LTS with clock | invariants; C52 neg (two listeners, late start, grace period) |
| C54-C61, C68, C69 | container/link LTS | invariants; C54-C60, C68, C69 neg |
| C62, C70 | mock router LTS | queue invariants; C70 neg |
| C63, C71-C73, C65 | fixture server functions | list reasoning; C65, C72 neg |
| C64, C74, C75 | `Vancap.Run` as a function of the answers it gets | case analysis; C64, C75 neg |
| C66 | source-to-collector pipeline | claim preserved by every manager step, started by the flush |
| C76, C77 | `main` as a function of flags and files | case analysis; C77 neg |
| C78, C81 | handlers of the record server over the store model | refinement of C13/C17; both neg |
| C79, C80 | timed retry system, any number of containers with one backoff | invariants; both neg |
| C82 | JSON trees of the capture and the upload, RFC 3339 texts | round trips by induction on fields and on the calendar; then through server, answer and upload; neg (two kinds under one ID) |
| C83 | flush goroutine of a discovered source | invariants; neg (send errors are not retried) |
| C84 | log handlers of any number of clients | invariant; neg (what cannot be encoded is not written) |
| C85 | `NewBase` | case analysis; encoder of C01 |
| C86 | `DecodeRecord` over the registry | neg (kinds without registration) + partial |
| C87 | the flush queue of the manager | counting invariant |
| C88 | fixture server LTS | invariant per place of the goroutine of `Start`; neg (connections stay open) |
| C89 | same | lock invariant, decreasing measure and enabledness; story of each request; neg (slow client, shutdown) |
| C90 | replays and queues LTS | measure and enabledness; neg (manager replaced) |
| C91 | end of `Vancap.Run` and the port forward goroutine as an LTS | invariant per place; refinement of `vancapRun` when the forward stays up; neg (false success, false failure, panic) |
| C92 | the goroutines of the commands as an LTS | invariant, decreasing measure and enabledness; neg (no server, early end of the container, `cancel` reassigned) |
| C93 | programs of lock and variable accesses, any number of goroutines | lock discipline checked on programs, sound for all courses; mutual exclusion invariant; neg (generation of a link, shared BackOff, registry, `cancel`, `src`, `err`) |
| C94 | the same | the same discipline gives balance; lock order gives progress |
| C95 | all paths, all settings | `cleanPath` is characterised (fixed points are exactly the paths in shortest form), longest-prefix matching; neg (paths below a listed one) |
| C96 | all intervals and delays, every interleaving of source, network and watch | invariants on the time since the last heartbeat left and arrived; neg (a Send that is not acknowledged: the delivery timeout is not enforced) |
| C97 | all settings, every interleaving | invariant "what is left to do after the last message"; no time lock (`C97_goes_on`) |
| C98 | all Go types by kind, method set and pointers | induction on the type; neg (defined scalars, interfaces, value receivers, encoder only) |
| C99 | `serve` LTS | measure until the next select; listing by a token of a listing never fails |
| C100 | product of the manager, router and client LTS | each part's runs are runs of its own model; messages in flight = sent minus received (invariant), stores = `collect` of what was handled; then C36 |
| C101 | manager LTS with both goroutines | bounds as an invariant; C39's measure for getting through; neg (the manager has stopped: publishers wait for ever) |
| C102 | the same product | measure: C39's, weighted by what one Send and one message in the channel can cost, plus the stages of the Send and of the listener; rest by cases on the places of all goroutines (C70 for the Send); the converse; then C100 |
| C103 | the manager LTS | invariant: the entry was sent already, or its rank is at least the position the continuation stands for (ranks do not fall while no smaller key goes away); counterexample with a delete between two pages |
| C104 | the product of C100 | C39 gives a whole flush after the request, C103 a message with the record; the run is cut there, and C66 (generalised by messages before) applies to what C100 says is delivered |
| C105 | the product of C100 | source invariant (C100): every queued record has only attributes of versions; the delivered messages encode queued records; induction over the accumulates of the collector |
| C106 | the product of C100 | invariant: the updates queued, taken and sent are, in order, the publications; what is delivered is a prefix of what is sent; chain of versions; a flush that repeats what was told changes no latest value; in calm states a flush sends only the last version, which was told; counterexample with a flush that overtakes two updates |
| C107 | the product of C100 with `listenFlushes` (Spec/Request) | what the receiver has got is what was sent since it subscribed (C62), so one message is received after the request; each received message is queued; then C104 |
| C108 | the product of C107 with the flush goroutine of serve.go:164-176 (Spec/FirstFlush) | a call of the awaiter on the record listener comes after a delivery, so after the subscription; the Send of the flush message comes after that call; the run is split at the subscription, where the conditions of C104 hold; a run for the negation |
| C109 | the product of the keepalive goroutine, the router, `Discovery.Run` and the discovery (Spec/Announce) | C62 (complete delivery) for the accepted Send; the handed-over messages are observed but for the one in hand; the data in the map and in the notes comes from an observed beacon or an Add; a run for the negation |
| C110 | the discovery handlers of the tool with what they start for each source (Model/PerSource), whose clients are those of Model/Client | runs projected to each client; a counting invariant over queue, handler and watches; what the handler has done is a prefix of what it has to do; a run of any length for the leak of containers, and for the negation that a container ends only by giving up |
| C111 | the three receive loops (Model/RecvLoop), each on a link of the container of Model/Container with any history and other users | the events of a loop against what it received, in one invariant; a bound by the generations the link has come to use since the context ended; runs with a failure and the end of the context in between |
| C112 | the text of JSON (Model/JsonText) against the grammar of RFC 8259 (Spec/JsonText) | reader = grammar, both ways, by induction on the length; writer by induction on the value; then through C82 from the text of an answer to the stores; neg (what follows the first value) |
| C113 | the lines of the log mode (Model/LogText) on the runs of Model/LogOnly | C84's invariant, C82 for the records, C112 for the text |
| C114 | Spec/Reconnect over the system of C100/C104: the listener changes its receiver any number of times while it is in `Next` | calls of Send do not depend on the receiver (invariant), each life begins as a collector that joins; then C104 and C105; negation by a run in which an update is sent between two receivers |
| C115 | `Model/CmdLine`: `FlagSet.Parse` with the flags of the tool, the choice of the command | neg (`-ca`, `-key`, `-tls-verify` are ignored without `-cert`, `-server` beside a connect.json) + partial; the parsing is exactly a small grammar of command lines, by induction on the number of arguments |
| C116 | reading a connect.json (Model/ConnectText: the text by Model/JsonText, the structs by the rules of Model/Json), then Model/ToolMain | an object is read field by field: it succeeds when every member has a value its field takes, and a field ends as its own members, in order, make it; the general lemma for structs is used twice |
| C117 | the tag as written, looked up by the loop of reflect.StructTag (Model/StructTag) | the conventional format as a grammar (Spec/StructTag); the lookup finds a value exactly if the tag begins with pairs of the grammar up to the first with the key; induction over the rounds |
| C118 | Model/Wire (AMQP values read and written), Model/Messages | the standard's encodings as a relation (Spec/Amqp, every form of every value) apart from reader and writer; the reader reads every form by induction on the relation, the writer writes one; composed with C09/C10 |
| C119 | Model/Container, Model/Wire (`sendOctets`) | false: whatever error `Send` gets, the session all links use is given up for it (invariant over all continuations of a refusal), with a run in which a receiver on another link is lost; partial: `Accept` tells nobody, and messages of the encoders are refused only for their length |
| C120 | Model/Container | invariant of a link that holds a received message and is used for `Accept` only, over all continuations; with a run that shows that operations must not overlap |
| C121 | `Model/Compare` (Go's `!=` on interface values) | panic iff the two records share a slice- or map-typed attribute (induction over the loops); counterexample with `[]byte`; refinement of `mergeLoop`/`diffLoop` on scalars |
| C122 | `Model/Keepalive` | run invariant tying the counters to the outcomes of all heartbeats so far; counterexample: any number of timeouts, nothing is aborted |
| C123 | Model/ContainerMu: the calls of go-amqp made under `r.mu` begin and end | refinement to Model/Container (invariant and a map of states), by which C54, C59 and C60 hold here too; invariant: what is being closed is not in use; neg: two operations at once, over all continuations |
| C124 | Model/Starts: any number of calls of `Start`, sessions numbered apart from their generations | invariants; neg: a link stuck behind a repeated generation over all continuations, a session given up for the error of another, two calls at once; partial: one call |
| C125 | Model/WaitGroup: the client's lock and WaitGroup with the steps of sync/waitgroup.go | invariant (a table of the places of `Close` and the last `Done`); neg: panics in `Listen` and in `Close`; partial: calls that do not overlap |
| C126 | `Model/Mock` | neg: the only receiver is closed, Send returns nil; for every state with only closed receivers, by induction on the list; partial: every open receiver that subscribed before has the message |
| C127 | `Model/Fixture` (`listFlows`), both orders of `range` arbitrary | the invariant of `flowStores` (C65) over any order of the stores; neg: an ID used by two sources (a pair is missing, or is mixed), a flow without its counterflow; partial: IDs unique |
| C128 | the system of C100/C104/C114; `ChangedSince` (Spec/Changed) says what a change is, from the versions alone | a change makes a delta that has the attribute (C37, C38), queued after the receiver was subscribed; invariant: what the queue and the messages sent since then tell last of the attribute is its latest value; a Send under way at the subscription and any number of lost connections by the lives of C114 |
| C129 | Spec/Collectors: the system of C100 with any number of collectors, each a process with its own client and stores | each collector sees a run of its own system (a step of another collector is a step of the router or nothing), then C100, C104, C105, C128; neg by a run of 60 steps with two collectors; the same run with nothing taken away is the instance of C129_kept |
