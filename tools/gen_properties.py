#!/usr/bin/env python3
# Regenerates /verif/properties.jsonl (kept as a script so ids stay stable).
import json, os
P = []
def p(id, title, statement, quantifier, why, *anchors):
    P.append(dict(id=id, title=title, statement=statement, quantifier=quantifier,
                  why_tests_cant=why, anchors=list(anchors)))

# ---------------------------------------------------------------- encoding
p("C01", "Encode then Decode returns the record",
  "For every record type accepted by MustRegisterRecord whose tags do not use attribute code 0, and every value of that type that Encode accepts, Decode(Encode(v)) succeeds and returns a record of the same type that is equal to v up to the documented canonical form: a pointer (chain) to a zero scalar becomes nil and a time is truncated to the microsecond.",
  "every registered struct type (any nesting of embedded structs, any pointer depth), every field value",
  "record types and field values are unbounded; unit tests use a handful of structs",
  "encoding/encoder.go:Encode", "encoding/decoder.go:Decode", "encoding/encoding.go:typeEncoding.encode", "encoding/encoding.go:typeEncoding.decode", "encoding/encoding.go:fieldsForType")
p("C02", "Decode then Encode keeps exactly the known, non-zero attributes",
  "If Decode(m) succeeds and Encode of the result succeeds, the produced attribute set maps code 0 to the record type code, maps every attribute code of the type to the value in m when that value is present and not the zero value, and contains nothing else (unknown attributes are dropped).",
  "every attribute set (any keys of any dynamic type) for every vanflow record type",
  "attribute sets are unbounded maps arriving from the network",
  "encoding/encoder.go:Encode", "encoding/decoder.go:Decode")
p("C03", "Required attributes are enforced in both directions",
  "Decode fails on any attribute set that lacks a required attribute of the record type; Encode fails on any record whose required field is empty; therefore no message ever carries a record without its identity.",
  "every registered type, every attribute set, every record value",
  "needs every combination of missing/present attributes",
  "encoding/encoding.go:typeEncoding.encode", "encoding/encoding.go:typeEncoding.decode", "base.go:BaseRecord")
p("C04", "Unknown attributes never influence decoding",
  "Two attribute sets that agree on code uint32(0) and on the attribute codes of the record type decode to the same result (same record, same error): keys of other types and unknown codes are ignored.",
  "every pair of attribute sets, every registry",
  "forward compatibility over all possible unknown attributes cannot be enumerated",
  "encoding/decoder.go:Decode", "encoding/encoding.go:typeEncoding.decode")
p("C05", "Decode never panics on network input",
  "For every attribute set Decode either returns a record or an error; in particular a null attribute value is reported as an error and does not panic.",
  "every attribute set, including null values and values of any dynamic type",
  "the input space is all maps; the crash is only visible on the null attribute nobody tested",
  "encoding/decoder.go:rawFieldDecoder.decode", "encoding/decoder.go:Decode")
p("C06", "The record registry stays a bijection",
  "After any sequence of MustRegisterRecord calls, no two types share a record code and no type has two codes, every type that can be encoded can be decoded under the code its encoding carries, a panicking registration leaves the registry unchanged, a later registration never changes how an already registered type is encoded or decoded, and the fifteen built-in registrations succeed.",
  "every sequence of registrations, successful or panicking",
  "order and failure combinations of registrations are unbounded",
  "encoding/encoding.go:MustRegisterRecord", "encoding/encoding.go:newEncodingForType", "records.go:init")
p("C07", "Every set attribute is transmitted",
  "An attribute whose pointer field is non-nil is present in the encoded attribute set with that value, even if the value is 0 or the empty string.",
  "every record value",
  "requires looking at every value of every field, in particular the zero ones",
  "encoding/encoder.go:rawFieldEncoder.encode", "encoding/encoder.go:pointerEncoder.encode")
p("C08", "Timestamps survive the wire with microsecond precision and order",
  "Every time between the epoch and the year 294246 encodes to its microsecond count, decodes back to the same instant truncated to the microsecond, order is preserved, the zero time is treated as unset, times before the epoch are rejected on encode, and encoded values above MaxInt64 or of another type are rejected on decode.",
  "every instant representable by time.Time, every attribute value",
  "2^63 instants, boundaries at zero time, epoch and int64 overflow",
  "base.go:Time.EncodeRecordAttribute", "base.go:Time.DecodeRecordAttribute")
# ---------------------------------------------------------------- messages
p("C09", "Beacon, heartbeat and flush messages round-trip",
  "Decode(m.Encode()) returns a message of the same kind with every payload field equal to m's; To and Subject are the protocol constants (mc/sfe.all / BEACON, mc/sfe.<id> / HEARTBEAT, FLUSH with caller's To and ReplyTo).",
  "every field value of every message",
  "all strings and integers",
  "messages.go:BeaconMessage.Encode", "messages.go:DecodeBeacon", "messages.go:HeartbeatMessage.Encode", "messages.go:DecodeHeartbeat", "messages.go:FlushMessage.Encode", "messages.go:DecodeFlush", "messages.go:Decode")
p("C10", "Record messages round-trip all records in order",
  "For every list of encodable vanflow records, Decode(RecordMessage.Encode()) returns a RecordMessage with the same To, subject RECORD and the same number of records, the i-th equal (up to canonical form) to the i-th sent.",
  "every list of records of every kind",
  "unbounded list length and record contents",
  "messages.go:RecordMessage.Encode", "messages.go:DecodeRecord", "messages.go:decodeRecords")
p("C11", "Decode classifies every AMQP message by subject",
  "Decode returns an error for a nil message, nil properties, missing or unknown subject, and otherwise a message whose kind is determined by the subject alone; beacon/heartbeat/flush decoding never fails and treats missing or wrongly typed properties as empty values.",
  "every AMQP message",
  "message space is unbounded, including absent and wrongly typed properties",
  "messages.go:Decode")
p("C12", "One bad record does not cost the other records of a message",
  "If one record of a RECORD message cannot be decoded, the other records of that message are still delivered to the handlers.",
  "every record list with at least one undecodable record at any position",
  "position and cause of the failure vary without bound",
  "messages.go:decodeRecords", "eventsource/client.go:Client.Listen", "records.go:ImageRecord")
# ---------------------------------------------------------------- store
p("C13", "The store is a map: Get returns the latest successful write",
  "After any sequence of Add, Update, Delete, Replace, Accumulate, Get, List and Index operations, Get(e) reports found exactly when the last effective write to key(e) was not a delete, and returns the entry that write stored; reads never change the store.",
  "every operation sequence, every key function, every entry",
  "histories are unbounded",
  "store/cache.go:objectCache", "store/internal/cache.go:SyncIndexedMap")
p("C14", "Add creates, never overwrites",
  "Add succeeds iff the key is absent; on success the entry is stored with a fresh UpdatedAt and OnAdd fires once with it; if the key is present Add returns an error, changes nothing and fires nothing.",
  "every reachable store state, every entry",
  "every history before the Add",
  "store/cache.go:objectCache.Add", "store/internal/conditional.go:WhenNotExists")
p("C15", "A stale ETag never overwrites (optimistic locking)",
  "If an Update carries WithIfMatch(etag) where etag was returned by an earlier Get and the entry has been written or deleted since, the Update fails and changes nothing; if the entry is unchanged since then, the Update succeeds.",
  "every history between the Get and the Update",
  "the ABA history (delete and re-create) is only one among unboundedly many",
  "store/etag.go:getConditional", "store/internal/conditional.go:WhenVersionMatches", "store/cache.go:objectCache.Update", "store/internal/cache.go:SyncIndexedMap.Delete")
p("C16", "ETags and continue tokens survive their text encoding",
  "Decoding the base64 text of an ETag returns the version and timestamp it was built from, for every 64-bit version and timestamp; decoding a continue token returns the offset for every offset below 2^31; malformed text is rejected with an error rather than misread.",
  "every version, timestamp, nonce and offset; every string for rejection",
  "2^128 tokens; truncation shows up only at large offsets",
  "store/etag.go:getETag", "store/etag.go:decodeETag", "store/continue.go:encodeCacheContinue", "store/continue.go:decodeCacheContinue")
p("C17", "Index returns exactly the matching entries",
  "After any history, Index(name, e) returns each stored entry that shares an index value with e under the named indexer exactly once, and nothing else; an unknown index name is an error.",
  "every history, every set of indexers (arbitrary functions returning arbitrary value lists, with repetitions), every exemplar",
  "stale or missing index entries depend on the whole history",
  "store/internal/cache.go:SyncIndexedMap.Index", "store/internal/cache.go:reindex", "store/internal/cache.go:unindex")
p("C18", "IndexValues lists exactly the live index values",
  "After any history, IndexValues(name) contains a value iff some stored entry has that value under the indexer, without repetition.",
  "every history, every indexer",
  "empty buckets left by deletes or updates depend on history",
  "store/internal/cache.go:SyncIndexedMap.IndexValues", "store/internal/cache.go:unindex")
p("C19", "Delete removes the entry and nothing else",
  "After Delete(e): Get(e) is not found, no Index or List result contains the entry of that key, all other entries and their versions are unchanged, OnDelete fires exactly once with the removed entry iff it existed, and Delete never fails when the key function succeeds.",
  "every reachable state, every entry",
  "every history before the delete",
  "store/cache.go:objectCache.Delete", "store/internal/cache.go:SyncIndexedMap.Delete")
p("C20", "Replace makes the store exactly the given entries",
  "After Replace(entries) the store contains, for each key among the entries, the last entry given for that key and nothing else; indexes match the new content; if the key function fails for any entry nothing changes.",
  "every reachable state, every entry list including duplicate keys",
  "unbounded lists and prior states",
  "store/cache.go:objectCache.Replace", "store/internal/cache.go:SyncIndexedMap.Replace")
p("C21", "Accumulate merges attribute-wise, last writer wins",
  "After any sequence of Accumulate calls with records of one kind and identity, the stored record's attribute for each code is the value given by the most recent record that set it (attributes never set stay unset); an attribute once set is never unset by Accumulate; the entry's Source, annotations and TypeMeta stay those of the first call.",
  "every sequence of partial records of any vanflow kind",
  "unbounded sequences of partial updates in every order",
  "store/patcher.go:recordPatcher.Patch", "store/cache.go:objectCache.Accumulate")
p("C22", "Accumulate is idempotent",
  "Accumulating a record that sets nothing new leaves the store, its version/ETag and its indexes untouched and fires no event; in particular accumulating the same record twice equals accumulating it once.",
  "every reachable state, every record",
  "depends on every stored state and every partial record",
  "store/patcher.go:recordPatcher.Patch", "store/cache.go:objectCache.Accumulate")
p("C23", "Accumulate fires the right event exactly once",
  "Accumulate fires OnAdd(new) exactly when it created the entry, OnChange(old,new) exactly when it changed an existing entry, and nothing when nothing changed or when it failed.",
  "every reachable state, every record including unencodable ones",
  "the failing branch depends on state and record together",
  "store/cache.go:objectCache.Accumulate")
p("C24", "Events are a faithful change log",
  "For every sequential history without Replace, replaying the OnAdd/OnChange/OnDelete events in order from an empty map reconstructs the store content exactly, and the Prev of each OnChange is the entry that was stored before.",
  "every sequential history of Add/Update/Delete/Accumulate",
  "event log and state must agree after every prefix of every history",
  "store/cache.go:EventHandlerFuncs", "store/cache.go:objectCache")
p("C25", "Accumulate never panics",
  "No sequence of Accumulate calls with built-in record kinds makes the store panic, even when two kinds share an identity and are merged into one another.",
  "every sequence of records of any mix of kinds",
  "mixes of kinds, identities and attribute values are unbounded",
  "store/patcher.go:recordPatcher.Patch")
p("C26", "List and Index selectors return the sorted window",
  "With a Selector the result is the window [offset, offset+limit) of all matching entries sorted by key ascending (or descending), limit 0 meaning no limit; Continue is set iff entries remain beyond the window; a negative offset or a malformed token is reported as an error.",
  "every store content, every selector",
  "all offsets/limits/orderings over all contents",
  "store/cache.go:objectCache.applySelector", "store/cache.go:objectCache.List", "store/cache.go:objectCache.Index")
p("C27", "Following Continue tokens visits every entry exactly once",
  "On a store that does not change meanwhile, repeatedly calling List with the returned Continue token terminates and the concatenated pages are exactly all entries in sorted order, each once, every page but the last having exactly Limit entries.",
  "every store content of fewer than 2^31 entries, every positive limit, both orderings",
  "all sizes and limits",
  "store/cache.go:objectCache.applySelector", "store/continue.go")
p("C28", "Paging does not miss entries that were there all along",
  "If the store is modified between pages, every entry present during the whole walk is still returned by some page.",
  "every interleaving of writes between the pages",
  "the failing interleaving (delete of an already visited entry) is one of unboundedly many",
  "store/cache.go:objectCache.applySelector", "eventsource/manager.go:Manager.serve")
p("C29", "Continue tokens are exact for any store size",
  "The continue token returned by List denotes the offset just after the page, whatever the number of entries.",
  "every store size",
  "fails only beyond 2^31 entries, out of reach of a test",
  "store/continue.go:encodeCacheContinue")
p("C30", "Dispatch routes each record to the store of its type, in order",
  "Dispatch delivers each record of a message to the store most recently registered for its type before the dispatcher was created, with the dispatcher's source, in message order; records of unregistered types and records whose accumulation fails do not affect the others.",
  "every registry, every message",
  "unbounded messages mixing types and failures",
  "store/dispatch.go:Dispatcher.Dispatch", "store/dispatch.go:DispatchRegistry.RegisterStore", "store/dispatch.go:DispatchRegistry.NewDispatcher")
p("C31", "Index by source distinguishes sources",
  "Two entries from different sources never fall in the same bucket of the source index.",
  "every pair of source references",
  "collisions need adversarial strings",
  "store/store.go:SourceRef.String", "store/cache.go:defaultIndexers")
p("C32", "An accumulated entry can be looked up by its own key",
  "For every key function, after Accumulate(src, r) a Get with the stored entry finds it.",
  "every key function, every record",
  "depends on which parts of the entry the key function reads",
  "store/cache.go:objectCache.Accumulate", "cmd/vanflow-tool/serve.go:newFixtureStore")
p("C33", "Concurrent writers see events in write order",
  "When several goroutines write to the store, the events for a key are delivered in the order in which the writes took effect, so the last event always describes the stored entry.",
  "every interleaving of concurrent operations",
  "schedules",
  "store/cache.go:objectCache.Update", "store/cache.go:objectCache.Accumulate")
p("C34", "Indexes stay right when callers reuse the entries they passed in",
  "Mutating an annotations map previously passed to or returned from the store does not corrupt the indexes.",
  "every history including caller-side mutation of shared maps",
  "aliasing histories are unbounded",
  "store/store.go:Metadata", "store/internal/cache.go:unindex")
# ---------------------------------------------------------------- manager
p("C35", "A published diff carries exactly the change",
  "For RecordUpdate{Prev,Curr} of one kind and identity, the record sent contains the identity and precisely the attributes whose value in Curr differs from Prev; nothing is sent iff no attribute of Curr differs; applying the diff to Prev yields Curr.",
  "every pair of records of every kind",
  "all pairs of attribute assignments",
  "eventsource/manager.go:diffRecord")
p("C36", "A collector converges to the published state",
  "If a source publishes successive versions of a record and a collector accumulates all messages in order, the collector's record ends with the attributes of the last version, whatever the batching.",
  "every sequence of record versions, every batching schedule",
  "histories and batch boundaries",
  "eventsource/manager.go:Manager.serve", "store/patcher.go", "messages.go")
p("C37", "Updates are sent once, in order, in bounded batches",
  "Each published update is put in exactly one record message, messages preserve publication order, no message has more than max(1, UpdateBatchSize) update records, and no empty message is sent.",
  "every schedule of publications, buffer timeouts, flushes and sends; every configuration",
  "schedules",
  "eventsource/manager.go:Manager.serve", "eventsource/manager.go:nextN")
p("C38", "A flush sends every record of every store in bounded batches",
  "When a flush is serviced and stores do not change meanwhile, the messages sent contain each record of each configured store exactly once, in store order then key order, with at most FlushBatchSize records per message (unbounded if FlushBatchSize <= 0) and no empty message.",
  "every number and content of stores, every batch size",
  "all store contents",
  "eventsource/manager.go:Manager.serve", "store/cache.go:objectCache.List")
p("C39", "A flush request is never lost",
  "Every flush message received is followed by a complete re-send that begins after its arrival, even when requests are coalesced or dropped because the queue is full (until the manager is stopped).",
  "every interleaving of flush arrivals and manager steps",
  "schedules and queue overflow",
  "eventsource/manager.go:Manager.listenFlushes", "eventsource/manager.go:Manager.serve")
p("C40", "One unencodable record does not cost the others in its batch",
  "If a published record cannot be encoded, the other records batched in the same message are still sent.",
  "every batch, every position of the bad record",
  "unbounded batches",
  "eventsource/manager.go:Manager.sendRecords", "messages.go:RecordMessage.Encode")
p("C41", "Keepalives announce before they beat, and stop on cancel",
  "The manager sends a beacon before any heartbeat; beacons and heartbeats carry the source's identity and version; after the context is cancelled the keepalive loop stops.",
  "every schedule of timers, send outcomes and cancellation",
  "schedules; the failing case needs cancellation before the first beacon is delivered",
  "eventsource/manager.go:Manager.sendKeepalives")
p("C42", "Keepalive sends time out",
  "A keepalive send that is not acknowledged within the delivery timeout returns with a timeout error.",
  "every sender behaviour",
  "depends on arbitrary delays",
  "eventsource/manager.go:sendWithTimeout")
# ---------------------------------------------------------------- client
p("C43", "Handlers see every decodable message once, in order",
  "For each record or heartbeat message received by a listener, every handler of that kind registered by then is called exactly once, in registration order and message order; other messages and undecodable messages call no handler and do not stop the listener.",
  "every message sequence, every interleaving of handler registration",
  "unbounded message sequences",
  "eventsource/client.go:Client.Listen", "eventsource/client.go:Client.getHandlers")
p("C44", "Close always returns and can be repeated",
  "Client.Close returns once listeners have stopped, whatever they were doing, and calling it again is harmless.",
  "every interleaving of Close with listener progress",
  "the deadlock needs a listener exactly between receiving and handling",
  "eventsource/client.go:Client.Close", "eventsource/client.go:Client.getHandlers", "eventsource/discovery.go:watch.run")
p("C45", "FlushOnFirstMessage flushes at most once and only after a message",
  "FlushOnFirstMessage sends exactly one flush to the source's direct address if a record or heartbeat message is handled before the context ends (and the context is not chosen first), sends none otherwise, and later messages never cause a second flush or a panic.",
  "every sequence of messages and cancellation",
  "schedules",
  "eventsource/flush.go:FlushOnFirstMessage")
# ---------------------------------------------------------------- discovery
p("C46", "Discovered and Forgotten events alternate per source",
  "For every source id, the number of Discovered events minus the number of Forgotten events emitted is 1 if the source is known and 0 otherwise, whatever the sequence of beacons, Add, Forget and lastSeen updates; List and Get agree with it.",
  "every sequence of operations",
  "histories",
  "eventsource/discovery.go:Discovery.observe", "eventsource/discovery.go:Discovery.Add", "eventsource/discovery.go:Discovery.Forget")
p("C47", "LastSeen never goes backwards",
  "While a source stays known its LastSeen never decreases, for a non-decreasing clock.",
  "every sequence of beacons, watch updates and Add calls",
  "histories and clock readings",
  "eventsource/discovery.go:Discovery.observe", "eventsource/discovery.go:Discovery.lastSeen")
p("C48", "A known source reflects its latest beacon",
  "After a beacon for a known source is observed, Get returns the address, direct address, type and version of that beacon.",
  "every sequence of beacons",
  "histories in which a source changes its address",
  "eventsource/discovery.go:Discovery.observe")
p("C49", "Discovery never deadlocks",
  "No interleaving of beacons, API calls and handler callbacks (including handlers that call back into Discovery, as vanflow-tool's do) reaches a state where nothing can make progress.",
  "every interleaving, any number of sources",
  "needs 33 pending discoveries at the right moment",
  "eventsource/discovery.go:Discovery.observe", "eventsource/discovery.go:Discovery.handleDiscovery", "eventsource/discovery.go:Discovery.NewWatchClient", "cmd/vanflow-tool/serve.go")
p("C50", "Handlers observe discover/forget in the order they happened",
  "The Discovered and Forgotten handlers are called in the order in which sources were discovered and forgotten, so a consumer that adds on Discovered and removes on Forgotten ends up with the known set.",
  "every schedule of the handler goroutine",
  "schedules",
  "eventsource/discovery.go:Discovery.handleDiscovery")
p("C51", "Discovery survives arbitrary messages on the beacon address",
  "Messages that are not beacons are skipped; no message can crash Discovery.Run.",
  "every AMQP message",
  "message space is unbounded, including absent subject",
  "eventsource/discovery.go:Discovery.Run")
p("C52", "An active source is never forgotten by its watch",
  "A watch forgets its source only if no record or heartbeat was handled during the preceding Timeout, and never before GracePeriod+Timeout after it started; with Timeout 0 it never forgets.",
  "every timing of activity, ticks and timer firings",
  "real-time schedules",
  "eventsource/discovery.go:watch.run", "eventsource/discovery.go:watch.advanceLastSeen")
p("C53", "A silent source is forgotten, and the watch never blocks itself",
  "If activity stops, the next expiry of the watch timer after its last re-arm forgets the source; the timer drain in the watch loop never blocks.",
  "every timing of activity, ticks and timer firings",
  "real-time schedules",
  "eventsource/discovery.go:watch.run")
# ---------------------------------------------------------------- session
p("C54", "A link never reuses a failed session",
  "After an operation on a link fails with a session error, the next operation uses a session of a strictly later generation; generations used by a link never decrease.",
  "every interleaving of session establishment, link operations and failures",
  "failure schedules",
  "session/container.go:link.awaitSession", "session/container.go:link.handleError", "session/container.go:container.awaitNextSession")
p("C55", "Errors from an old session never tear down the new one",
  "The container restarts only on an error reported for its current generation, at most once per generation, and errors from earlier generations, context cancellation or closed links never cause a restart.",
  "every interleaving of error reports",
  "failure schedules",
  "session/container.go:container.Start", "session/container.go:link.handleError")
p("C56", "Operations on a closed link fail promptly",
  "After Close, Next, Accept and Send return an error without blocking or looping.",
  "every state of the link, every context",
  "non-termination cannot be observed by a test",
  "session/container.go:link.Next", "session/container.go:link.awaitSession")
p("C57", "The requested credit is used",
  "A receiver created with ReceiverOptions{Credit: n}, n > 0, is attached with credit n.",
  "every credit value",
  "silently ignored option",
  "session/container.go:ReceiverOptions.get", "session/container.go:link.getReceiver")
p("C58", "Link operations honour their context",
  "A link operation whose context is cancelled returns.",
  "every state of the container, every number of failing links",
  "needs more pending error reports than the queue holds",
  "session/container.go:link.handleError")
p("C59", "Closing a link while it is in use is safe",
  "Close concurrent with Next, Accept or Send never panics.",
  "every interleaving",
  "needs Close exactly between session wait and link creation",
  "session/container.go:link.Close", "session/container.go:link.getReceiver")
p("C60", "Connections and links are released",
  "Every AMQP connection and sender/receiver opened by the container is closed when it is replaced or the link is closed.",
  "every failure sequence",
  "failure schedules",
  "session/container.go:container.Start", "session/container.go:link.Close")
p("C61", "Error handlers learn about restarts and about the end",
  "Each failed connection attempt or session calls every OnSessionError handler once with a retryable error while the backoff continues; when the backoff gives up the handlers are called once with a non-retryable error; cancellation calls none.",
  "every sequence of dial/session outcomes",
  "failure schedules",
  "session/container.go:container.Start", "session/container.go:errSessionRestart")
p("C62", "The mock router multicasts in order",
  "Every open receiver subscribed to an address receives each message sent to that address after its subscription exactly once and in send order; other addresses receive nothing.",
  "every sequence of subscriptions, sends, receives and closes",
  "schedules",
  "session/mock.go:multicast.send", "session/mock.go:MockRouter.get")
# ---------------------------------------------------------------- tools
p("C63", "A fixture upload is partitioned by source without loss",
  "groupEntriesBySource puts each uploaded entry of a configured type with a parsable record into the group of its source, preserving order, and nothing else.",
  "every upload",
  "unbounded uploads mixing sources, types and malformed records",
  "cmd/vanflow-tool/fixture.go:groupEntriesBySource")
p("C64", "vancap derives the API host from the kube config URL",
  "The host used for port forwarding is the configured host with its URL scheme removed.",
  "every host string",
  "fails only for hosts starting with certain letters",
  "vancap/main.go:Vancap.Run")
p("C65", "Flow replay tolerates half pairs",
  "Requesting flow replay when a flow's counterflow is not in the loaded data does not crash the fixture server.",
  "every set of flow records",
  "depends on dangling references",
  "cmd/vanflow-tool/fixture.go:ServeFlows", "cmd/vanflow-tool/fixture.go:fakeFlow")
# ---------------------------------------------------------------- found while proving
p("C66", "A flush resynchronises a collector",
  "Whatever part of the earlier messages a collector got, once a flush message with the record has been queued and everything sent from then on reaches the collector, its copy of the record (absent or stale before) has every attribute of the last published version when all is sent.",
  "every history before the flush, every schedule of updates, flushes and sends after it",
  "needs arbitrary prior divergence combined with arbitrary interleavings of the snapshot",
  "eventsource/manager.go:Manager.serve", "eventsource/manager.go:Manager.flush", "store/patcher.go:recordPatcher.Patch")
p("C67", "Keepalives do not flood",
  "The number of heartbeats (and of repeated beacons) a manager has begun to send never exceeds the number of full heartbeat (beacon) intervals since it started; and in any stretch of time, after whatever delay, there are at most three more of them than intervals in that stretch.",
  "every timing of ticks, sends, timeouts and cancellation",
  "depends on arbitrarily late timers and slow sends",
  "eventsource/manager.go:Manager.sendKeepalives")
p("C68", "Error handlers may use the container",
  "A handler registered with OnSessionError can call methods of the container and returns; the container keeps working.",
  "every state in which handlers are called",
  "a deadlock in one particular handler, seen only when a session fails",
  "session/container.go:container.Start", "session/container.go:container.OnSessionError")
p("C69", "Operations end when the container has ended",
  "When the container has stopped (backoff exhausted or context cancelled), operations waiting for a session return an error.",
  "every state of the container and its links",
  "absence of progress: a test cannot observe that something never returns",
  "session/container.go:container.awaitNextSession", "session/container.go:container.Start")
p("C70", "A mock receiver that is not read does not stop the others",
  "A Send on the mock router returns when its context ends or when the receiver it waits for is closed; meanwhile receivers can subscribe to the address.",
  "every schedule of sends, receives, subscriptions and closes",
  "a test that hangs only when a receiver stops reading with a full buffer",
  "session/mock.go:mockReceiver.send", "session/mock.go:multicast.send", "session/mock.go:multicast.subscribe")
p("C71", "An upload is accepted and loads the last version of every record",
  "Whatever is uploaded to the fixture server, the request succeeds, and the store of each source then holds, for each record identity, exactly the last uploaded entry of that source with that identity.",
  "every upload",
  "unbounded uploads with repeated identities across sources and types",
  "cmd/vanflow-tool/fixture.go:fixtureServer.ServeFixture", "cmd/vanflow-tool/serve.go:newFixtureStore")
p("C72", "Every uploaded source is impersonated",
  "After an upload there is one manager per source, with that source's addresses and that source's records.",
  "every upload",
  "needs uploads with sources that agree in one attribute and differ in another",
  "cmd/vanflow-tool/fixture.go:fixtureServer.Start")
p("C73", "Replayed flows have complete and chained histories",
  "A replay request for n flows publishes, for each of them, a server flow that names the client flow, and a client flow; each flow has a complete history: the first update, one continuing update per round whose previous value is the value before, and a last one that ends the flow.",
  "every set of flow pairs, number of flows, and random choices",
  "unbounded rounds and random choices",
  "cmd/vanflow-tool/fixture.go:fixtureServer.fakeFlow")
p("C74", "vancap cleans up after itself",
  "A deployment created by vancap is requested to be deleted exactly once, after everything else, however the run ends (success, error, interruption, panic); and nothing else is deleted.",
  "every combination of answers from the cluster, the file system and the server",
  "combinations of failures",
  "vancap/main.go:Vancap.Run")
p("C75", "A reported capture is a capture",
  "When vancap reports success the output file holds the records served; when it fails an existing output file is unchanged.",
  "every combination of answers from the cluster, the file system and the server",
  "combinations of failures",
  "vancap/main.go:Vancap.Run")
p("C76", "Server verification is off only when the settings say so",
  "Whenever vanflow-tool connects, the server certificate is checked against the named CA if the TLS settings in force (those of the flags if -cert is given, else those of connect.json if it names a CA) ask for verification; it is never switched off if they do.",
  "every combination of flags and files",
  "the combinations of flags, files present and files missing",
  "cmd/vanflow-tool/main.go:main", "cmd/vanflow-tool/main.go:tlsConfig.Parse")
p("C77", "SASL EXTERNAL is only asked for with a client certificate",
  "vanflow-tool asks for SASL EXTERNAL only if it has loaded a client certificate.",
  "every combination of flags and files",
  "the combinations of flags, files present and files missing",
  "cmd/vanflow-tool/main.go:main", "cmd/vanflow-tool/main.go:tlsConfig.Parse")
p("C78", "The record server answers with the stored records",
  "Whatever the store has been through, a request for / is answered with status 200 and every stored record exactly once, and a request for a type with the records of that type.",
  "every history of the store",
  "record contents that make the answer fail, in an unbounded space of histories",
  "cmd/vanflow-tool/serve.go:serveRecords")
p("C79", "A container gives up only after an outage as long as the limit",
  "A container whose backoff has a maximum elapsed time ends with a non-retryable error only after having been without a session for about that time; without a maximum it never does.",
  "every timed execution",
  "hours of wall-clock time in one particular pattern",
  "session/container.go:container.Start")
p("C80", "A container that cannot connect gives up after the limit",
  "A container that does not get a session within the maximum elapsed time of its backoff ends with a non-retryable error.",
  "every timed execution",
  "needs several containers of one factory failing and succeeding for longer than the limit",
  "session/container.go:container.Start", "session/factory.go:factory.Create", "cmd/vanflow-tool/main.go:main")
p("C81", "The record server serves the records of the known sources",
  "/sources/ lists exactly the sources discovered and not forgotten since; the records served under / are those of listed sources.",
  "every sequence of discoveries, messages and forgettings",
  "unbounded sequences of events",
  "cmd/vanflow-tool/serve.go:serveRecords")
p("C82", "A capture can be replayed as a fixture",
  "What the record server answers to a request for all records can be uploaded to the fixture server as it is: each source then holds exactly the captured records of its configured types, with the source, update time, annotations, kind and every field unchanged.",
  "every history of received messages, every record of every built-in kind, every representable time",
  "all records and times that one side can write and the other has to read",
  "cmd/vanflow-tool/serve.go:serveRecords", "cmd/vanflow-tool/fixture.go:ServeFixture", "cmd/vanflow-tool/fixture.go:groupEntriesBySource", "cmd/vanflow-tool/api.go:PartialEntry", "base.go:Time")
p("C83", "Every discovered source is flushed while the tool runs",
  "For every discovered source the tool gets a flush request accepted by the source's sender, after the first message or after five seconds, unless the tool is shut down.",
  "every sequence of messages, time-outs, send results and shutdown",
  "the schedules of the five-second limit against messages, send errors and shutdown",
  "cmd/vanflow-tool/serve.go:serveRecords", "cmd/vanflow-tool/log.go:logOnly", "eventsource/flush.go:FlushOnFirstMessage")
p("C84", "The log mode writes every message it handles",
  "Every heartbeat or record message handed to the handlers of the log mode is written to standard output as one line that describes it, each once, and those of one client in the order in which they were handled.",
  "every interleaving of any number of clients, every message",
  "unbounded interleavings, and message contents that cannot be encoded",
  "cmd/vanflow-tool/log.go:logOnly")
p("C85", "NewBase sets what it is given",
  "NewBase(id, times...) sets the identity, the first time as start and the second as end; it panics exactly if given more than two. A record of any built-in kind with that base, a non-empty identity and representable times can be encoded, with exactly these values in attributes 1, 3 and 4.",
  "every identity, list of times, built-in kind and other fields",
  "all kinds, with any other field values",
  "base.go:NewBase")
p("C86", "Every registered kind of record can be received",
  "A RECORD message made of well-formed records of registered kinds is delivered with all of them.",
  "every message made of well-formed records",
  "all mixtures of kinds in a message",
  "records.go:init", "messages.go:DecodeRecord")
p("C87", "Flush requests are coalesced, and only counted once",
  "Every flush the manager begins is for at least one request of its own and for at most 2049; no flush is begun without a request, and without FlushDelay there is exactly one flush for each request that found room in the queue.",
  "every schedule of requests, flushes and updates in which no request finds the queue full",
  "the count is a property of whole histories, and the bound of 2048 drained requests is out of reach of a test",
  "eventsource/manager.go:serve", "eventsource/manager.go:nextN")
p("C88", "An upload replaces the one before it",
  "At any time the managers that run are those of a single upload: the last one received or, until they are told to stop, the one before. When the server waits for the next upload, exactly the managers of the last one run, once each, /flows sees them and the status is running; nothing of earlier uploads is left. The status in an answer is one the server had after the request came in.",
  "every interleaving of any number of requests, uploads, replays and the goroutine of Start",
  "unbounded histories of concurrent uploads",
  "cmd/vanflow-tool/fixture.go:Start", "cmd/vanflow-tool/fixture.go:ServeFixture", "cmd/vanflow-tool/fixture.go:ServeFlows")
p("C89", "Every request to the fixture server is answered",
  "Every request is answered once: an upload that can be read after it has been received by the goroutine of Start, one that cannot be read with an error. When nothing more comes from outside the server comes to rest, and then every request is answered whose client has sent all of it.",
  "every interleaving of any number of requests, with clients that may be slow or stop, and shutdown",
  "deadlocks and starvation by other clients show only in particular schedules",
  "cmd/vanflow-tool/fixture.go:ServeFixture", "cmd/vanflow-tool/fixture.go:ServeFlows", "cmd/vanflow-tool/fixture.go:Start")
p("C90", "A replay ends and is counted",
  "Every replay started by a request to /flows ends, once, and the number of replayed flows in the answers is that of the replays that have ended.",
  "every interleaving of replays of any size, managers and uploads that replace the managers",
  "needs more updates than the queue holds and an upload at the wrong moment",
  "cmd/vanflow-tool/fixture.go:fakeFlow", "cmd/vanflow-tool/fixture.go:ServeFlows", "eventsource/manager.go:PublishUpdate")
p("C91", "The capture reports what happened to it",
  "Vancap.Run reports success exactly if the forwarded port became ready, the output file was created, the request was answered and the whole answer was written; otherwise it reports an error and does not panic. The port forward running beside it does not change that.",
  "every interleaving of Run with the goroutine of the port forward, which may end at any time with or without an error",
  "the loss of the connection has to fall between an assignment of err and the test that follows it",
  "vancap/main.go:Vancap.Run")
p("C92", "The serve and fixture commands end when they should",
  "The commands return only after an interrupt or after their container has given up, and their server has ended then. After an interrupt, after the container has given up, and when the server cannot listen they do return. Requests being answered are given a second.",
  "every interleaving of the command, its server and its container with signals and requests",
  "needs a port that is taken, or a container that gives up at one particular moment",
  "cmd/vanflow-tool/serve.go:serveRecords", "cmd/vanflow-tool/fixture.go:serveFixture", "cmd/vanflow-tool/main.go:main")
p("C93", "Shared variables are protected",
  "No two goroutines touch the same variable at the same time, one of them writing it: containers, links, clients, discovery, stores, the mock router, the registry of record types and the fixture server may be used by any number of goroutines at once.",
  "any number of goroutines making any calls on any objects, in every interleaving",
  "the race detector sees only the accesses of the schedules that were run",
  "session/container.go:handleError", "session/container.go:awaitSession", "session/container.go:Start", "eventsource/client.go:getHandlers", "eventsource/discovery.go:observe",
  "store/internal/cache.go:Patch", "store/internal/cache.go:Index", "session/mock.go:send", "encoding/encoding.go:MustRegisterRecord", "encoding/encoder.go:Encode",
  "cmd/vanflow-tool/fixture.go:ServeFlows", "store/dispatch.go:RegisterStore")
p("C94", "Locks are given back and never block each other",
  "On every path through every function a lock is released exactly as often as it is taken and is not taken again while held. Goroutines never wait for each other's locks in a circle, also when a waiting writer keeps new readers of an RWMutex out.",
  "every path of every function that takes a lock; any number of goroutines making any calls, in every interleaving",
  "a path that keeps a lock, or two locks taken in opposite order, is a matter of rare branches and schedules",
  "session/container.go:Start", "session/container.go:getReceiver", "eventsource/client.go:Close", "eventsource/discovery.go:Forget", "store/internal/cache.go:Replace",
  "session/mock.go:subscribe", "encoding/decoder.go:Decode", "cmd/vanflow-tool/fixture.go:ServeFlows")
p("C95", "Each path of the servers is answered by its own handler",
  "The record server can be set up whatever records are included (no pattern is registered twice). Every path it lists in Refs is answered by the handler of that path: / by the list of everything, /sources/ by the sources, the path of a type by the records of exactly that type. A listed path without its last slash is redirected to it, any other way to write a path to its shortest form, so that every request is answered after one redirect at most. Every path that is not listed is answered with 404. The fixture server answers /flows with the flows and every other path with the fixture.",
  "all paths, all settings of include-flows and include-logs",
  "the set of paths is infinite; that an unlisted path below a listed one is answered is seen only by a test that asks for such a path",
  "cmd/vanflow-tool/serve.go:serveRecords", "cmd/vanflow-tool/fixture.go:serveFixture")
p("C96", "A source that sends its heartbeats is not forgotten",
  "A watch whose Timeout is longer than the longest time between two heartbeats of the source (its interval, a late tick and the sends that come first) plus the time a delivery takes never forgets that source, provided the source had announced itself and the client listened early enough. Sends return within their delivery timeout.",
  "all intervals, timeouts and delays; every interleaving of the source's goroutine, its tickers, the deliveries, the handler and the watch",
  "the unlucky order (a tick that is late, beacons preferred by the select, a slow send, the timer firing just before the message is recorded) is rare and depends on real time",
  "eventsource/manager.go:sendKeepalives", "eventsource/manager.go:sendWithTimeout", "eventsource/discovery.go:run", "eventsource/discovery.go:newWatch")
p("C97", "A silent source is forgotten in time",
  "Once no more messages of a source are handled, its watch forgets it no later than a Timeout after the watch's next look at the activity (one period of its ticker after the last message), or after GracePeriod plus Timeout from the start if that is later; timers that are late add their lateness twice.",
  "all settings of Timeout, GracePeriod and interval; every interleaving of the watch with its timer, its ticker and the handlers",
  "needs timers and ticks that fire together, in either order, while a message is being recorded",
  "eventsource/discovery.go:run", "eventsource/discovery.go:advanceLastSeen")
p("C98", "A field type that registration accepts can be sent and received",
  "MustRegisterRecord accepts a tagged field only if values of its type survive: whatever Encode produces for the field, carried over AMQP (which knows predeclared types only), Decode turns back into the same value, and neither panics. This includes defined scalar types, types with one or both of the codec methods on either receiver, interfaces, and any number of pointers to these.",
  "all Go types of fields, all method sets of the codec interfaces, all values",
  "the types of a test suite are a handful; method sets, receivers, kinds and pointers combine freely",
  "encoding/encoder.go:getFieldEncoder", "encoding/decoder.go:getFieldDecoder", "encoding/decoder.go:decode", "encoding/encoding.go:fieldsForType")

p("C99", "A manager stops when its context ends",
  "When the context given to Manager.Run ends, the goroutine that serves updates and flushes returns: at each point where it waits it can stop, and between two such points it moves at most once per store and three times more, whatever publishers, stores, flush requests and the sender do. It stops for no other reason, and once it has stopped it takes and queues nothing more. The goroutine that sends returns as well, as soon as the Send it may be in ends, and then sends nothing more.",
  "every number and content of stores, every state of the three queues, every interleaving of publishers, flush requests, store writes, sender and cancellation",
  "cancellation can fall between any two steps, with full or empty queues, in the middle of a flush",
  "eventsource/manager.go:Manager.serve", "eventsource/manager.go:Manager.sendRecords", "eventsource/manager.go:nextN", "store/cache.go:applySelector")

p("C100", "What a source publishes reaches the stores of a collector, whatever the interleaving",
  "A source with its manager, the router, and a collector's client with its dispatcher and stores run together. The receiver is subscribed and the dispatcher registered before the source publishes. No handler call of the collector panics and every message that arrives can be decoded. When all is published, sent, received and handled, and the receiver was not closed, the client was given exactly the messages of the manager, in order, and the stores are what accumulating these messages gives. If moreover no send failed, the collector's entry of a record has, for every attribute, the last value published, and comes from the source.",
  "every interleaving of publisher, manager, senders, router, listeners, handlers and other users of router and client; every record and sequence of versions; every configuration of stores and registrations of handlers",
  "five goroutines and three queues between a publication and the store",
  "eventsource/manager.go:Manager.sendRecords", "eventsource/manager.go:Manager.serve", "session/mock.go:multicast.send", "session/mock.go:mockReceiver.Next",
  "eventsource/client.go:Client.Listen", "store/dispatch.go:DispatchRegistry.dispatch")

p("C101", "Publishers wait only while the manager is behind, and the manager's queues are bounded",
  "At most 256 updates, 8 flush requests and 256 messages are queued in a manager. PublishUpdate waits exactly while 256 updates are queued, and a publication that waits gets through: nothing but a send that does not end keeps it waiting.",
  "every schedule of publishers, flush requests, sends and cancellation; every configuration and content of stores",
  "queues have to be full; the waiting publisher has to meet every state of the other goroutines",
  "eventsource/manager.go:Manager.PublishUpdate", "eventsource/manager.go:NewManager", "eventsource/manager.go:Manager.serve", "eventsource/manager.go:Manager.sendRecords")

p("C102", "Left alone, source, router and collector come to rest, and by then everything has arrived",
  "Once the publisher stops, the goroutines between a source and a collector's stores make a bounded number of moves, whatever the schedule. If the manager is running, no other receiver on the address is full and nobody is closing the client, they cannot get stuck on the way: when none of them can move, the manager's queues and the receiver's channel are empty, no Send is under way and the listener waits for a message; and so the collector's store has, for every attribute of a published record, the last value published (if no Send failed and the manager did not panic).",
  "every interleaving before and after the last publication; every configuration, content of stores, number of receivers and handlers",
  "termination is about all schedules; a deadlock between five goroutines and four queues may need a rare one",
  "eventsource/manager.go:Manager.serve", "eventsource/manager.go:Manager.sendRecords", "session/mock.go:multicast.send", "session/mock.go:mockSender.Send",
  "session/mock.go:mockReceiver.Next", "eventsource/client.go:Client.Listen", "eventsource/client.go:Client.getHandlers")

p("C103", "Every entry that is in a store of the manager all through a flush is in one of its messages, however the stores are written meanwhile",
  "A flush lists a store page by page, and the owner may write the store between the pages. Every entry that is in a store of the manager from the beginning of a flush to its end is in one of the flush's messages, with its content at the time its page was listed. (As written the code keeps this only if no smaller key is deleted meanwhile: then an entry moves to a page that was already sent, and the flush skips it.)",
  "every interleaving of the flush with writes to all stores; every number of stores, batch size, content and continuation",
  "the delete must fall between two pages of one flush and hit a key before the page boundary; tests flush stores that nobody writes",
  "eventsource/manager.go:Manager.serve", "store/cache.go:objectCache.List")

p("C104", "A collector that joins late has everything after a flush",
  "A source has been running and publishing, its messages were sent or lost. A collector subscribes, and some time after that a flush message arrives at the manager. Once everything is published, sent, received and handled (which the goroutines reach, left alone), the collector's store has an entry of the record with every attribute of its last version, whatever stale entry it had before — provided that from the flush message on the record stays in a store of the manager, no smaller key is deleted from that store, and no message is lost on the manager's side.",
  "every interleaving of source, manager, router, client and stores, before and after the joining; every content of the collector's store",
  "the joining may fall between any two steps of a running source, e.g. between a page of a flush and the update it overlaps with",
  "eventsource/manager.go:Manager.serve", "eventsource/manager.go:Manager.listenFlushes", "eventsource/manager.go:Manager.sendRecords", "session/mock.go:multicast.send",
  "eventsource/client.go:Client.Listen", "store/cache.go:objectCache.List")

p("C105", "Nothing a collector shows is made up",
  "At every time, whatever was lost before and however source, router and collector interleave: every attribute that the collector's entry of a record shows is an attribute of one of the versions that the source has had of it, or of the stale entry of the record that the collector had when it joined.",
  "every interleaving of source, manager, router, client and stores; every loss; every time of joining; every content of the collector's store",
  "a wrong merge of an old and a new version is visible for a moment only, and only in some schedules",
  "eventsource/manager.go:Manager.serve", "eventsource/manager.go:Manager.sendRecords", "eventsource/manager.go:nextN", "eventsource/client.go:Client.Listen", "store/cache.go:objectCache.Patch")

p("C106", "What a collector shows does not go back to an older version",
  "While no message is lost, a collector that was there from the start shows at every time, attribute by attribute, the latest value in the first m versions of the record, and m does not fall over time. (As written the code keeps this only if flushes send nothing of the record that was not sent before: a flush that is served while updates wait in the queue shows the newest version first and then the older ones again.)",
  "every interleaving of source, manager, router, client and stores; every pair of times; every sequence of versions",
  "the flush request has to be served while updates of the record are queued, and the collector has to be looked at in between",
  "eventsource/manager.go:Manager.serve", "eventsource/manager.go:Manager.PublishUpdate", "eventsource/manager.go:nextN", "store/cache.go:objectCache.Patch")

p("C107", "A flush request that is sent to a source is served",
  "After a collector has joined, somebody sends a message to the direct address of the source, to which the manager's flush receiver is subscribed. As long as the context of the manager has not ended, that message makes the manager receive a flush request, and once everything is handled the collector's store has an entry of the record with every attribute of its last version (under the conditions of C104, from the time of the request on). While a request waits at the receiver or is in hand, listenFlushes can move.",
  "every interleaving of the requester, listenFlushes, manager, router, client and stores; any number of further requests, served or dropped because the queue is full",
  "the request passes the router, a goroutine and a queue that drops; which of several requests is dropped depends on the schedule",
  "eventsource/manager.go:Manager.listenFlushes", "session/mock.go:multicast.send", "session/mock.go:mockReceiver.Next", "eventsource/manager.go:Manager.serve", "eventsource/client.go:Client.Listen")

p("C108", "A collector that discovers a source and reports \"flush sent\" gets what the source has",
  "The vanflow-tool listens to a discovered source and asks for a flush with the first message it gets, or after five seconds. When the flush goroutine has ended without an error and everything is handled, the collector's store has an entry of the record with every attribute of its last version. Negated by the code: the first message may come on the heartbeat listener, or the five seconds may pass, before the receiver of the record listener is subscribed; the source then sends everything it has, but not to this collector. Proved when the receiver is subscribed before the Send of the flush message is called, in particular when the first message comes within the five seconds on the listener to the source's address.",
  "every interleaving of the flush goroutine, both Sends of it, the listeners, listenFlushes, manager, router and stores; the source may have done anything before, and a Send of it may be under way when the collector comes; any record, any conditions of C104",
  "the order in which two goroutines of the client subscribe, and whether a heartbeat comes in between, is up to the scheduler",
  "cmd/vanflow-tool/serve.go:serveRecords", "eventsource/flush.go:FlushOnFirstMessage", "eventsource/client.go:Client.SendFlush", "eventsource/client.go:Client.Listen", "eventsource/manager.go:Manager.listenFlushes")

p("C109", "A running source is discovered, with its data",
  "A discovery is subscribed to the address of the beacons, and after that a manager's Send of a beacon ends without an error. Once the Sends to that address have returned, the receiver's channel is empty and Run waits for the next message, a beacon with the identity, version, type and addresses of the manager's configuration has been observed; the source is known unless it was forgotten since, and once the discoveries are handled the handler has been called for it; under the addresses of the configuration. The last part is negated by the code: of a source that was announced before with other addresses, those stay. Proved when every beacon with that identity, and every Add of it, has the same data.",
  "every interleaving of the keepalive goroutine, router, Discovery.Run, the callers of the discovery's methods and the handlers, from the start of all of them; any other users of the router, who may send any messages to the address of the beacons, before and after",
  "a beacon passes three goroutines and two queues, and whether it is lost depends on when the receiver is subscribed and on what others send",
  "eventsource/manager.go:Manager.sendKeepalives", "eventsource/discovery.go:Discovery.Run", "eventsource/discovery.go:Discovery.observe", "session/mock.go:multicast.send", "messages.go:DecodeBeacon")

p("C110", "What is started for a source is released when the source is forgotten",
  "For every discovered source, serve and log start a container, a client that listens at the addresses asked for by the flags and the source's type, and a watch. A known source is looked after at exactly one place: it waits for the handler, is being handled, or is watched once. When the source has been forgotten and its client is closed, nothing of what was started for it is left: no listener, no handler call, no container. The client is closed once, and the handlers are registered before the first listener starts.",
  "every interleaving of beacons, discovery handlers, watches, listeners, messages and shutdown, with any number of sources, for both commands and all flags",
  "leaks show only after many discoveries and forgettings, and a handler that is slower than its watch is a matter of schedules",
  "cmd/vanflow-tool/serve.go:serveRecords", "cmd/vanflow-tool/log.go:logOnly", "eventsource/discovery.go:Discovery.NewWatchClient", "eventsource/discovery.go:watch.run", "eventsource/client.go:Client.Close", "eventsource/client.go:Client.Listen")

p("C111", "A receiving goroutine handles each message once and nothing else",
  "Client.Listen, Manager.listenFlushes and Discovery.Run each receive in a loop from a link of the session container. Whatever sessions fail, each handles every message it receives exactly once, in order, and nothing besides, it sees no error of Next and does not end while its context has not ended; after that, Next returns at most two errors besides the error of the context, and one more per session established. False for listenFlushes after its context has ended (a flush is queued, and AcceptMessage called, for a nil message) and for Client.Listen when accepting a message fails (the message is dropped). Only the use of a closed link gives errLinkClosed.",
  "every history of the container, every interleaving of session failures, attach failures, receive and accept errors, other users of the container, and the end of the context",
  "the context has to end between the failure of a call and the check of the context",
  "eventsource/manager.go:Manager.listenFlushes", "eventsource/client.go:Client.Listen", "eventsource/discovery.go:Discovery.Run", "session/container.go:link.Next", "session/container.go:link.Accept", "session/container.go:link.handleError")

p("C112", "JSON text is read as what it stands for, and written so that it is read back",
  "The text of requests and answers: json.Unmarshal accepts exactly the JSON texts of RFC 8259 (with U+FFFD for halves of surrogate pairs) and gives the value the text stands for; what Encode writes is such a text, stands for the value written, holds no control character or HTML character, and is one line; and the text of an answer of the record server, uploaded to the fixture server, gives every source the entries the answer had for it. A request body that is not a JSON text is refused: false, Decode takes the first value and whatever follows it is ignored.",
  "every text, every JSON value without fractions, every list of entries, every history of the record server",
  "there are infinitely many texts; escapes, surrogates, white space and number syntax combine",
  "cmd/vanflow-tool/fixture.go:fixtureServer.ServeFixture", "cmd/vanflow-tool/serve.go:serveRecords", "cmd/vanflow-tool/api.go:RecordsResponse", "cmd/vanflow-tool/api.go:ReplaceRequest")

p("C113", "The log mode prints one JSON line per message, and the line shows everything",
  "In every run of the log mode, standard output consists of lines, one for each message written and in that order; each is a JSON object that shows the addresses, version, time and identity of a heartbeat, and for records the type names and JSON from which every field can be read back; for messages that cannot be encoded nothing is printed.",
  "every run of the handlers and of the writer, every message with records as they come out of messages",
  "depends on the text of arbitrary values and on the interleaving of listeners",
  "cmd/vanflow-tool/log.go:logOnly", "cmd/vanflow-tool/log.go:Message", "cmd/vanflow-tool/log.go:RecordData")

p("C114", "A collector recovers from a lost connection",
  "When the connection of a collector is lost and the container has made another, the collector's stores come to show again what the sources have: an update sent while there was no connection is not missing for good once everything is quiet. FALSE in the code: the link makes a new receiver inside Next, the client and serve do not notice, and the flush is asked for once per discovery, so what was sent in between is missing until the source changes the same attributes again. What holds: whatever was missed, nothing in the stores is made up and the dispatcher does not panic; and if a flush message reaches the manager after the new receiver was subscribed, and nothing is lost from there on, the collector has every attribute of the last version.",
  "all sources, versions, interleavings of source, manager, router and collector, any number of lost connections",
  "A test would have to lose the connection at a chosen moment, and can do so for a few moments only; that the stores stay wrong forever is not observable in a finite test.",
  "session/container.go:313-325", "session/container.go:341-370", "session/container.go:386-402", "eventsource/client.go:97-110", "cmd/vanflow-tool/serve.go:121-176")

p("C115", "The command line means what it says",
  "Whatever its arguments, vanflow-tool either runs the command that is named, once, with every flag at the value given last or else at its documented default, or it exits with a status that is not 0 (0 only if help was asked for). No flag is accepted and then ignored: the connection is made with the address and the TLS settings of the command line.",
  "all argument lists, all file systems",
  "The parsing depends on the order and the form of all words (one or two dashes, value after an equals sign or in the next word, on/off flags which never take the next word, `--`); a test tries a few command lines, and an ignored TLS flag shows only with a server that has the wrong certificate.",
  "cmd/vanflow-tool/main.go:19-63", "cmd/vanflow-tool/main.go:64-70", "cmd/vanflow-tool/main.go:103-148")

p("C116", "A connect.json is read as it is written, and its settings take effect",
  "The tool goes on with a file given by -messaging-config exactly when its text is one JSON value, null or an object, in which every setting the tool knows has a value of its kind (a string, for verify a boolean, for tls an object) or null. The settings are then the last values given, names compared regardless of case, several tls objects read as one, everything else ignored. The tool connects to scheme://host:port of the file, checks the server exactly when the file says so, against the CA of the file, and uses the certificate and key of the file.",
  "For all texts of the file, all ways of comparing names that tell the settings apart, all flags and all contents of the file system.",
  "The texts are infinitely many, and repeated members, null values, differences of case and values of the wrong kind combine; a test reads a few files.",
  "cmd/vanflow-tool/main.go:79-101", "cmd/vanflow-tool/main.go:150-162", "cmd/vanflow-tool/main.go:164-189")

p("C117", "A field whose tag names a vflow code is part of the record",
  "A field of a registered struct whose tag gives vflow a value becomes a field of the record with the code of that value, or registering the type panics; it is never left out silently. The tags of the built-in records give the codes they are meant to give.",
  "all tags (as written between the backquotes), all field names and types",
  "The tags are compiled in, so a test sees only the tags that exist, and a field left out is visible only as an attribute missing from messages; which malformed tags are passed over is a matter of all texts.",
  "encoding/encoding.go:110-133", "encoding/encoding.go:182-218", "base.go:25-29", "records.go:27-221")

p("C118", "Messages survive the wire",
  "Every message vanflow's encoders return can be written in AMQP 1.0, in any order of the entries of its Go maps. Whatever conforming octets carry its sections to the receiver - the octets written, the same values in other forms of the standard, sections added by routers - are read back into Go values of exactly the types the decoders assert, and decode to the beacon, heartbeat, flush or records that were sent. A record whose keys are all strings comes back with another Go type and its whole message is refused.",
  "all messages of the four kinds (records of every built-in type), all orders of map entries, all encodings the standard allows for each value, all sections a router may add; messages shorter than 2^32 octets",
  "Tests pass messages in memory or through one library on both ends, so they see one form of each value; a router or another peer may choose any of the forms, and the Go type a value is read as decides whether a decoder takes it.",
  "messages.go:43-232", "encoding/encoder.go:25-60", "encoding/decoder.go:22-47", "session/container.go:386-445")

p("C119", "A message that cannot be sent costs only itself",
  "When the AMQP library refuses a message for its contents or its length, the Send of that message fails and nothing else: the session goes on and the other links of the container are not disturbed.",
  "all executions of a container with any number of links whose operations do not overlap per link, all errors that are neither the end of a context nor a closed link; all messages the encoders return",
  "Tests send messages that are accepted. What a refused message costs shows on other links, after a reconnection.",
  "session/container.go:327-356", "session/container.go:428-445", "session/container.go:188-207")

p("C120", "A message is accepted on the session it came from",
  "Accept asks its link for a receiver anew, and the delivery number of a message means another message on another session. Whatever happens to sessions and other links after Next has returned a message, as long as the link is then only used to accept, it uses no other session than the one the message came with, attaches to none and reports no error.",
  "all executions of a container whose links are each used by one goroutine (as the receive loops of vanflow do), any number of links, failures and reconnections, Close at any time",
  "Needs a session to be replaced between Next and Accept; the wrong acceptance would show in what a router forgets.",
  "session/container.go:404-426", "session/container.go:293-311", "session/container.go:359-371", "eventsource/client.go:97-135", "eventsource/manager.go:308-326", "eventsource/discovery.go:50-71")

p("C121", "A record that can be sent can be kept and published",
  "A record of a registered type that encodes without error, decodes to what it was and survives the wire can be accumulated in a store that has a record with its key, and an update of it can be published, without a panic.",
  "every record type, with field types that encode themselves to values of any Go type, every record, every store content",
  "the record types of the package have only scalar attributes; a panic needs a type that encodes to a slice or map, as []byte",
  "store/patcher.go:39-48", "eventsource/manager.go:115-132", "encoding/encoder.go:27-31")
p("C122", "The first heartbeat timeouts are ignored, later ones have consequences",
  "Of the heartbeats that time out, exactly those before any other outcome, and at most three, are ignored; after that the connection is aborted (manager.go:291-295).",
  "every sequence of heartbeat outcomes, timers and cancellation",
  "unbounded sequences of outcomes; a test would have to wait for timeouts",
  "eventsource/manager.go:274-306")
p("C123", "An operation waits for no other operation's network call",
  "A Send, Next or Accept never waits for go-amqp to answer another operation on the same link, nor for Close of the link: the mutex of the link is held for its own calls only.",
  "every run of the container, the connections, the links and their operations in which attaching a link, closing a receiver and closing the previous connection take time",
  "needs a network call that takes its time and another goroutine on the same link meanwhile; every interleaving is covered",
  "session/container.go:293-310", "session/container.go:352-384", "session/container.go:447-457", "session/container.go:181-192")
p("C124", "A container can be started again",
  "A container that has ended, by its context or its backoff, and is started again works as before: links that wait for a session get the new one, and a session is given up for its own errors only.",
  "every run of any number of calls of Start, one after the other or at once, sessions, links and session errors",
  "needs a second Start after a first that served sessions, with links that live longer than the first",
  "session/container.go:157-231", "session/container.go:131-144", "session/container.go:348-355")
p("C125", "Listen and Close may be called at the same time",
  "However calls of Listen and Close of one client overlap, neither they nor the goroutines of the listeners panic, and Close returns once all listeners have left.",
  "every interleaving of any number of Listen calls, their goroutines and Close, with the atomic steps of sync.WaitGroup",
  "the panics need a Listen within a few instructions of the last listener's end while Close waits",
  "eventsource/client.go:87-96", "eventsource/client.go:139-147")
p("C126", "What the mock router says it has sent has a receiver",
  "When Send on the mock router returns nil, some receiver has got the message; with no receiver to take it, Send waits for one.",
  "every run of the mock router: any number of addresses, senders and receivers, closed at any time, and every interleaving of their steps",
  "needs a Send after all receivers of the address have been closed, and a look at who got the message",
  "session/mock.go:92-109", "session/mock.go:112-118", "session/mock.go:126-133")
p("C127", "GET /flows lists the pairs of flows",
  "The answer to GET /flows lists exactly the pairs of an uploaded flow and the uploaded flow it names as its counterflow, each pair once.",
  "every upload, any number of sources and flows, and every order in which Go goes through the maps",
  "needs flows with the same ID in two sources, or a flow without its counterflow; the order of the maps is random",
  "cmd/vanflow-tool/fixture.go:191-220", "cmd/vanflow-tool/fixture.go:242-252")
p("C128", "What changes after a collector has joined arrives without a flush",
  "A collector has joined a source that may have done anything before, or has another receiver after it lost its connection and missed any number of messages. If an attribute of a record changes from there on, and the manager loses no message from there on, then once everything is published, sent, received and handled the collector's store has an entry of the record in which that attribute has its latest value, also if nobody ever asks for a flush.",
  "all sources, versions, attributes, interleavings of source, manager, router and collector, any number of lost connections, a Send under way when the receiver is subscribed",
  "needs the change at every point of every interleaving, before and while the receiver is subscribed; a test tries a few, and with a flush the omission of a delta is hidden.",
  "eventsource/manager.go:80-99", "eventsource/manager.go:101-142", "eventsource/manager.go:144-226", "session/container.go:313-325", "eventsource/client.go:87-138")
p("C129", "Collectors of one source agree",
  "Any number of collectors listen to one source; some were there from the start, others join later. When everything is published, sent, received and handled, nothing was lost and a flush was served after the last of them joined, their entries of a record have the same attributes with the same values. FALSE in the code: an attribute that is taken away cannot be told (C35), so a collector that was there before shows it for good while one that joins afterwards never has it, in spite of the flush. What holds: all collectors have every attribute of the last version; of attributes that change after the last has joined they show the same values without a flush; collectors that were all there from the start agree on everything; and where two differ, the attribute has been taken away, so without that they agree on everything.",
  "all sources, versions, numbers of collectors, interleavings of source, manager, router and all collectors",
  "needs two collectors that join at different times, and every interleaving of both with the source; a test that compares a collector with the source does not see two of them disagree.",
  "eventsource/manager.go:101-142", "eventsource/manager.go:178-222", "eventsource/client.go:87-138", "session/mock.go:92-124", "store/dispatch.go:1-61")
with open(os.path.join(os.path.dirname(__file__), "..", "properties.jsonl"), "w") as f:
    for x in P: f.write(json.dumps(x) + "\n")
print(len(P))
