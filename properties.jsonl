{"id": "C01", "title": "Encode then Decode returns the record", "statement": "For every record type accepted by MustRegisterRecord whose tags do not use attribute code 0, and every value of that type that Encode accepts, Decode(Encode(v)) succeeds and returns a record of the same type that is equal to v up to the documented canonical form: a pointer (chain) to a zero scalar becomes nil and a time is truncated to the microsecond.", "quantifier": "every registered struct type (any nesting of embedded structs, any pointer depth), every field value", "why_tests_cant": "record types and field values are unbounded; unit tests use a handful of structs", "anchors": ["encoding/encoder.go:Encode", "encoding/decoder.go:Decode", "encoding/encoding.go:typeEncoding.encode", "encoding/encoding.go:typeEncoding.decode", "encoding/encoding.go:fieldsForType"]}
{"id": "C02", "title": "Decode then Encode keeps exactly the known, non-zero attributes", "statement": "If Decode(m) succeeds and Encode of the result succeeds, the produced attribute set maps code 0 to the record type code, maps every attribute code of the type to the value in m when that value is present and not the zero value, and contains nothing else (unknown attributes are dropped).", "quantifier": "every attribute set (any keys of any dynamic type) for every vanflow record type", "why_tests_cant": "attribute sets are unbounded maps arriving from the network", "anchors": ["encoding/encoder.go:Encode", "encoding/decoder.go:Decode"]}
{"id": "C03", "title": "Required attributes are enforced in both directions", "statement": "Decode fails on any attribute set that lacks a required attribute of the record type; Encode fails on any record whose required field is empty; therefore no message ever carries a record without its identity.", "quantifier": "every registered type, every attribute set, every record value", "why_tests_cant": "needs every combination of missing/present attributes", "anchors": ["encoding/encoding.go:typeEncoding.encode", "encoding/encoding.go:typeEncoding.decode", "base.go:BaseRecord"]}
{"id": "C04", "title": "Unknown attributes never influence decoding", "statement": "Two attribute sets that agree on code uint32(0) and on the attribute codes of the record type decode to the same result (same record, same error): keys of other types and unknown codes are ignored.", "quantifier": "every pair of attribute sets, every registry", "why_tests_cant": "forward compatibility over all possible unknown attributes cannot be enumerated", "anchors": ["encoding/decoder.go:Decode", "encoding/encoding.go:typeEncoding.decode"]}
{"id": "C05", "title": "Decode never panics on network input", "statement": "For every attribute set Decode either returns a record or an error; in particular a null attribute value is reported as an error and does not panic.", "quantifier": "every attribute set, including null values and values of any dynamic type", "why_tests_cant": "the input space is all maps; the crash is only visible on the null attribute nobody tested", "anchors": ["encoding/decoder.go:rawFieldDecoder.decode", "encoding/decoder.go:Decode"]}
{"id": "C06", "title": "The record registry stays a bijection", "statement": "After any sequence of MustRegisterRecord calls, no two types share a record code and no type has two codes, every type that can be encoded can be decoded under the code its encoding carries, a panicking registration leaves the registry unchanged, a later registration never changes how an already registered type is encoded or decoded, and the fifteen built-in registrations succeed.", "quantifier": "every sequence of registrations, successful or panicking", "why_tests_cant": "order and failure combinations of registrations are unbounded", "anchors": ["encoding/encoding.go:MustRegisterRecord", "encoding/encoding.go:newEncodingForType", "records.go:init"]}
{"id": "C07", "title": "Every set attribute is transmitted", "statement": "An attribute whose pointer field is non-nil is present in the encoded attribute set with that value, even if the value is 0 or the empty string.", "quantifier": "every record value", "why_tests_cant": "requires looking at every value of every field, in particular the zero ones", "anchors": ["encoding/encoder.go:rawFieldEncoder.encode", "encoding/encoder.go:pointerEncoder.encode"]}
{"id": "C08", "title": "Timestamps survive the wire with microsecond precision and order", "statement": "Every time between the epoch and the year 294246 encodes to its microsecond count, decodes back to the same instant truncated to the microsecond, order is preserved, the zero time is treated as unset, times before the epoch are rejected on encode, and encoded values above MaxInt64 or of another type are rejected on decode.", "quantifier": "every instant representable by time.Time, every attribute value", "why_tests_cant": "2^63 instants, boundaries at zero time, epoch and int64 overflow", "anchors": ["base.go:Time.EncodeRecordAttribute", "base.go:Time.DecodeRecordAttribute"]}
{"id": "C09", "title": "Beacon, heartbeat and flush messages round-trip", "statement": "Decode(m.Encode()) returns a message of the same kind with every payload field equal to m's; To and Subject are the protocol constants (mc/sfe.all / BEACON, mc/sfe.<id> / HEARTBEAT, FLUSH with caller's To and ReplyTo).", "quantifier": "every field value of every message", "why_tests_cant": "all strings and integers", "anchors": ["messages.go:BeaconMessage.Encode", "messages.go:DecodeBeacon", "messages.go:HeartbeatMessage.Encode", "messages.go:DecodeHeartbeat", "messages.go:FlushMessage.Encode", "messages.go:DecodeFlush", "messages.go:Decode"]}
{"id": "C10", "title": "Record messages round-trip all records in order", "statement": "For every list of encodable vanflow records, Decode(RecordMessage.Encode()) returns a RecordMessage with the same To, subject RECORD and the same number of records, the i-th equal (up to canonical form) to the i-th sent.", "quantifier": "every list of records of every kind", "why_tests_cant": "unbounded list length and record contents", "anchors": ["messages.go:RecordMessage.Encode", "messages.go:DecodeRecord", "messages.go:decodeRecords"]}
{"id": "C11", "title": "Decode classifies every AMQP message by subject", "statement": "Decode returns an error for a nil message, nil properties, missing or unknown subject, and otherwise a message whose kind is determined by the subject alone; beacon/heartbeat/flush decoding never fails and treats missing or wrongly typed properties as empty values.", "quantifier": "every AMQP message", "why_tests_cant": "message space is unbounded, including absent and wrongly typed properties", "anchors": ["messages.go:Decode"]}
{"id": "C12", "title": "One bad record does not cost the other records of a message", "statement": "If one record of a RECORD message cannot be decoded, the other records of that message are still delivered to the handlers.", "quantifier": "every record list with at least one undecodable record at any position", "why_tests_cant": "position and cause of the failure vary without bound", "anchors": ["messages.go:decodeRecords", "eventsource/client.go:Client.Listen", "records.go:ImageRecord"]}
{"id": "C13", "title": "The store is a map: Get returns the latest successful write", "statement": "After any sequence of Add, Update, Delete, Replace, Accumulate, Get, List and Index operations, Get(e) reports found exactly when the last effective write to key(e) was not a delete, and returns the entry that write stored; reads never change the store.", "quantifier": "every operation sequence, every key function, every entry", "why_tests_cant": "histories are unbounded", "anchors": ["store/cache.go:objectCache", "store/internal/cache.go:SyncIndexedMap"]}
{"id": "C14", "title": "Add creates, never overwrites", "statement": "Add succeeds iff the key is absent; on success the entry is stored with a fresh UpdatedAt and OnAdd fires once with it; if the key is present Add returns an error, changes nothing and fires nothing.", "quantifier": "every reachable store state, every entry", "why_tests_cant": "every history before the Add", "anchors": ["store/cache.go:objectCache.Add", "store/internal/conditional.go:WhenNotExists"]}
{"id": "C15", "title": "A stale ETag never overwrites (optimistic locking)", "statement": "If an Update carries WithIfMatch(etag) where etag was returned by an earlier Get and the entry has been written or deleted since, the Update fails and changes nothing; if the entry is unchanged since then, the Update succeeds.", "quantifier": "every history between the Get and the Update", "why_tests_cant": "the ABA history (delete and re-create) is only one among unboundedly many", "anchors": ["store/etag.go:getConditional", "store/internal/conditional.go:WhenVersionMatches", "store/cache.go:objectCache.Update", "store/internal/cache.go:SyncIndexedMap.Delete"]}
{"id": "C16", "title": "ETags and continue tokens survive their text encoding", "statement": "Decoding the base64 text of an ETag returns the version and timestamp it was built from, for every 64-bit version and timestamp; decoding a continue token returns the offset for every offset below 2^31; malformed text is rejected with an error rather than misread.", "quantifier": "every version, timestamp, nonce and offset; every string for rejection", "why_tests_cant": "2^128 tokens; truncation shows up only at large offsets", "anchors": ["store/etag.go:getETag", "store/etag.go:decodeETag", "store/continue.go:encodeCacheContinue", "store/continue.go:decodeCacheContinue"]}
{"id": "C17", "title": "Index returns exactly the matching entries", "statement": "After any history, Index(name, e) returns each stored entry that shares an index value with e under the named indexer exactly once, and nothing else; an unknown index name is an error.", "quantifier": "every history, every set of indexers (arbitrary functions returning arbitrary value lists, with repetitions), every exemplar", "why_tests_cant": "stale or missing index entries depend on the whole history", "anchors": ["store/internal/cache.go:SyncIndexedMap.Index", "store/internal/cache.go:reindex", "store/internal/cache.go:unindex"]}
{"id": "C18", "title": "IndexValues lists exactly the live index values", "statement": "After any history, IndexValues(name) contains a value iff some stored entry has that value under the indexer, without repetition.", "quantifier": "every history, every indexer", "why_tests_cant": "empty buckets left by deletes or updates depend on history", "anchors": ["store/internal/cache.go:SyncIndexedMap.IndexValues", "store/internal/cache.go:unindex"]}
{"id": "C19", "title": "Delete removes the entry and nothing else", "statement": "After Delete(e): Get(e) is not found, no Index or List result contains the entry of that key, all other entries and their versions are unchanged, OnDelete fires exactly once with the removed entry iff it existed, and Delete never fails when the key function succeeds.", "quantifier": "every reachable state, every entry", "why_tests_cant": "every history before the delete", "anchors": ["store/cache.go:objectCache.Delete", "store/internal/cache.go:SyncIndexedMap.Delete"]}
{"id": "C20", "title": "Replace makes the store exactly the given entries", "statement": "After Replace(entries) the store contains, for each key among the entries, the last entry given for that key and nothing else; indexes match the new content; if the key function fails for any entry nothing changes.", "quantifier": "every reachable state, every entry list including duplicate keys", "why_tests_cant": "unbounded lists and prior states", "anchors": ["store/cache.go:objectCache.Replace", "store/internal/cache.go:SyncIndexedMap.Replace"]}
{"id": "C21", "title": "Accumulate merges attribute-wise, last writer wins", "statement": "After any sequence of Accumulate calls with records of one kind and identity, the stored record's attribute for each code is the value given by the most recent record that set it (attributes never set stay unset); an attribute once set is never unset by Accumulate; the entry's Source, annotations and TypeMeta stay those of the first call.", "quantifier": "every sequence of partial records of any vanflow kind", "why_tests_cant": "unbounded sequences of partial updates in every order", "anchors": ["store/patcher.go:recordPatcher.Patch", "store/cache.go:objectCache.Accumulate"]}
{"id": "C22", "title": "Accumulate is idempotent", "statement": "Accumulating a record that sets nothing new leaves the store, its version/ETag and its indexes untouched and fires no event; in particular accumulating the same record twice equals accumulating it once.", "quantifier": "every reachable state, every record", "why_tests_cant": "depends on every stored state and every partial record", "anchors": ["store/patcher.go:recordPatcher.Patch", "store/cache.go:objectCache.Accumulate"]}
{"id": "C23", "title": "Accumulate fires the right event exactly once", "statement": "Accumulate fires OnAdd(new) exactly when it created the entry, OnChange(old,new) exactly when it changed an existing entry, and nothing when nothing changed or when it failed.", "quantifier": "every reachable state, every record including unencodable ones", "why_tests_cant": "the failing branch depends on state and record together", "anchors": ["store/cache.go:objectCache.Accumulate"]}
{"id": "C24", "title": "Events are a faithful change log", "statement": "For every sequential history without Replace, replaying the OnAdd/OnChange/OnDelete events in order from an empty map reconstructs the store content exactly, and the Prev of each OnChange is the entry that was stored before.", "quantifier": "every sequential history of Add/Update/Delete/Accumulate", "why_tests_cant": "event log and state must agree after every prefix of every history", "anchors": ["store/cache.go:EventHandlerFuncs", "store/cache.go:objectCache"]}
{"id": "C25", "title": "Accumulate never panics", "statement": "No sequence of Accumulate calls with built-in record kinds makes the store panic, even when two kinds share an identity and are merged into one another.", "quantifier": "every sequence of records of any mix of kinds", "why_tests_cant": "mixes of kinds, identities and attribute values are unbounded", "anchors": ["store/patcher.go:recordPatcher.Patch"]}
{"id": "C26", "title": "List and Index selectors return the sorted window", "statement": "With a Selector the result is the window [offset, offset+limit) of all matching entries sorted by key ascending (or descending), limit 0 meaning no limit; Continue is set iff entries remain beyond the window; a negative offset or a malformed token is reported as an error.", "quantifier": "every store content, every selector", "why_tests_cant": "all offsets/limits/orderings over all contents", "anchors": ["store/cache.go:objectCache.applySelector", "store/cache.go:objectCache.List", "store/cache.go:objectCache.Index"]}
{"id": "C27", "title": "Following Continue tokens visits every entry exactly once", "statement": "On a store that does not change meanwhile, repeatedly calling List with the returned Continue token terminates and the concatenated pages are exactly all entries in sorted order, each once, every page but the last having exactly Limit entries.", "quantifier": "every store content of fewer than 2^31 entries, every positive limit, both orderings", "why_tests_cant": "all sizes and limits", "anchors": ["store/cache.go:objectCache.applySelector", "store/continue.go"]}
{"id": "C28", "title": "Paging does not miss entries that were there all along", "statement": "If the store is modified between pages, every entry present during the whole walk is still returned by some page.", "quantifier": "every interleaving of writes between the pages", "why_tests_cant": "the failing interleaving (delete of an already visited entry) is one of unboundedly many", "anchors": ["store/cache.go:objectCache.applySelector", "eventsource/manager.go:Manager.serve"]}
{"id": "C29", "title": "Continue tokens are exact for any store size", "statement": "The continue token returned by List denotes the offset just after the page, whatever the number of entries.", "quantifier": "every store size", "why_tests_cant": "fails only beyond 2^31 entries, out of reach of a test", "anchors": ["store/continue.go:encodeCacheContinue"]}
{"id": "C30", "title": "Dispatch routes each record to the store of its type, in order", "statement": "Dispatch delivers each record of a message to the store most recently registered for its type before the dispatcher was created, with the dispatcher's source, in message order; records of unregistered types and records whose accumulation fails do not affect the others.", "quantifier": "every registry, every message", "why_tests_cant": "unbounded messages mixing types and failures", "anchors": ["store/dispatch.go:Dispatcher.Dispatch", "store/dispatch.go:DispatchRegistry.RegisterStore", "store/dispatch.go:DispatchRegistry.NewDispatcher"]}
{"id": "C31", "title": "Index by source distinguishes sources", "statement": "Two entries from different sources never fall in the same bucket of the source index.", "quantifier": "every pair of source references", "why_tests_cant": "collisions need adversarial strings", "anchors": ["store/store.go:SourceRef.String", "store/cache.go:defaultIndexers"]}
{"id": "C32", "title": "An accumulated entry can be looked up by its own key", "statement": "For every key function, after Accumulate(src, r) a Get with the stored entry finds it.", "quantifier": "every key function, every record", "why_tests_cant": "depends on which parts of the entry the key function reads", "anchors": ["store/cache.go:objectCache.Accumulate", "cmd/vanflow-tool/serve.go:newFixtureStore"]}
{"id": "C33", "title": "Concurrent writers see events in write order", "statement": "When several goroutines write to the store, the events for a key are delivered in the order in which the writes took effect, so the last event always describes the stored entry.", "quantifier": "every interleaving of concurrent operations", "why_tests_cant": "schedules", "anchors": ["store/cache.go:objectCache.Update", "store/cache.go:objectCache.Accumulate"]}
{"id": "C34", "title": "Indexes stay right when callers reuse the entries they passed in", "statement": "Mutating an annotations map previously passed to or returned from the store does not corrupt the indexes.", "quantifier": "every history including caller-side mutation of shared maps", "why_tests_cant": "aliasing histories are unbounded", "anchors": ["store/store.go:Metadata", "store/internal/cache.go:unindex"]}
{"id": "C35", "title": "A published diff carries exactly the change", "statement": "For RecordUpdate{Prev,Curr} of one kind and identity, the record sent contains the identity and precisely the attributes whose value in Curr differs from Prev; nothing is sent iff no attribute of Curr differs; applying the diff to Prev yields Curr.", "quantifier": "every pair of records of every kind", "why_tests_cant": "all pairs of attribute assignments", "anchors": ["eventsource/manager.go:diffRecord"]}
{"id": "C36", "title": "A collector converges to the published state", "statement": "If a source publishes successive versions of a record and a collector accumulates all messages in order, the collector's record ends with the attributes of the last version, whatever the batching.", "quantifier": "every sequence of record versions, every batching schedule", "why_tests_cant": "histories and batch boundaries", "anchors": ["eventsource/manager.go:Manager.serve", "store/patcher.go", "messages.go"]}
{"id": "C37", "title": "Updates are sent once, in order, in bounded batches", "statement": "Each published update is put in exactly one record message, messages preserve publication order, no message has more than max(1, UpdateBatchSize) update records, and no empty message is sent.", "quantifier": "every schedule of publications, buffer timeouts, flushes and sends; every configuration", "why_tests_cant": "schedules", "anchors": ["eventsource/manager.go:Manager.serve", "eventsource/manager.go:nextN"]}
{"id": "C38", "title": "A flush sends every record of every store in bounded batches", "statement": "When a flush is serviced and stores do not change meanwhile, the messages sent contain each record of each configured store exactly once, in store order then key order, with at most FlushBatchSize records per message (unbounded if FlushBatchSize <= 0) and no empty message.", "quantifier": "every number and content of stores, every batch size", "why_tests_cant": "all store contents", "anchors": ["eventsource/manager.go:Manager.serve", "store/cache.go:objectCache.List"]}
{"id": "C39", "title": "A flush request is never lost", "statement": "Every flush message received is followed by a complete re-send that begins after its arrival, even when requests are coalesced or dropped because the queue is full (until the manager is stopped).", "quantifier": "every interleaving of flush arrivals and manager steps", "why_tests_cant": "schedules and queue overflow", "anchors": ["eventsource/manager.go:Manager.listenFlushes", "eventsource/manager.go:Manager.serve"]}
{"id": "C40", "title": "One unencodable record does not cost the others in its batch", "statement": "If a published record cannot be encoded, the other records batched in the same message are still sent.", "quantifier": "every batch, every position of the bad record", "why_tests_cant": "unbounded batches", "anchors": ["eventsource/manager.go:Manager.sendRecords", "messages.go:RecordMessage.Encode"]}
{"id": "C41", "title": "Keepalives announce before they beat, and stop on cancel", "statement": "The manager sends a beacon before any heartbeat; beacons and heartbeats carry the source's identity and version; after the context is cancelled the keepalive loop stops.", "quantifier": "every schedule of timers, send outcomes and cancellation", "why_tests_cant": "schedules; the failing case needs cancellation before the first beacon is delivered", "anchors": ["eventsource/manager.go:Manager.sendKeepalives"]}
{"id": "C42", "title": "Keepalive sends time out", "statement": "A keepalive send that is not acknowledged within the delivery timeout returns with a timeout error.", "quantifier": "every sender behaviour", "why_tests_cant": "depends on arbitrary delays", "anchors": ["eventsource/manager.go:sendWithTimeout"]}
{"id": "C43", "title": "Handlers see every decodable message once, in order", "statement": "For each record or heartbeat message received by a listener, every handler of that kind registered by then is called exactly once, in registration order and message order; other messages and undecodable messages call no handler and do not stop the listener.", "quantifier": "every message sequence, every interleaving of handler registration", "why_tests_cant": "unbounded message sequences", "anchors": ["eventsource/client.go:Client.Listen", "eventsource/client.go:Client.getHandlers"]}
{"id": "C44", "title": "Close always returns and can be repeated", "statement": "Client.Close returns once listeners have stopped, whatever they were doing, and calling it again is harmless.", "quantifier": "every interleaving of Close with listener progress", "why_tests_cant": "the deadlock needs a listener exactly between receiving and handling", "anchors": ["eventsource/client.go:Client.Close", "eventsource/client.go:Client.getHandlers", "eventsource/discovery.go:watch.run"]}
{"id": "C45", "title": "FlushOnFirstMessage flushes at most once and only after a message", "statement": "FlushOnFirstMessage sends exactly one flush to the source's direct address if a record or heartbeat message is handled before the context ends (and the context is not chosen first), sends none otherwise, and later messages never cause a second flush or a panic.", "quantifier": "every sequence of messages and cancellation", "why_tests_cant": "schedules", "anchors": ["eventsource/flush.go:FlushOnFirstMessage"]}
{"id": "C46", "title": "Discovered and Forgotten events alternate per source", "statement": "For every source id, the number of Discovered events minus the number of Forgotten events emitted is 1 if the source is known and 0 otherwise, whatever the sequence of beacons, Add, Forget and lastSeen updates; List and Get agree with it.", "quantifier": "every sequence of operations", "why_tests_cant": "histories", "anchors": ["eventsource/discovery.go:Discovery.observe", "eventsource/discovery.go:Discovery.Add", "eventsource/discovery.go:Discovery.Forget"]}
{"id": "C47", "title": "LastSeen never goes backwards", "statement": "While a source stays known its LastSeen never decreases, for a non-decreasing clock.", "quantifier": "every sequence of beacons, watch updates and Add calls", "why_tests_cant": "histories and clock readings", "anchors": ["eventsource/discovery.go:Discovery.observe", "eventsource/discovery.go:Discovery.lastSeen"]}
{"id": "C48", "title": "A known source reflects its latest beacon", "statement": "After a beacon for a known source is observed, Get returns the address, direct address, type and version of that beacon.", "quantifier": "every sequence of beacons", "why_tests_cant": "histories in which a source changes its address", "anchors": ["eventsource/discovery.go:Discovery.observe"]}
{"id": "C49", "title": "Discovery never deadlocks", "statement": "No interleaving of beacons, API calls and handler callbacks (including handlers that call back into Discovery, as vanflow-tool's do) reaches a state where nothing can make progress.", "quantifier": "every interleaving, any number of sources", "why_tests_cant": "needs 33 pending discoveries at the right moment", "anchors": ["eventsource/discovery.go:Discovery.observe", "eventsource/discovery.go:Discovery.handleDiscovery", "eventsource/discovery.go:Discovery.NewWatchClient", "cmd/vanflow-tool/serve.go"]}
{"id": "C50", "title": "Handlers observe discover/forget in the order they happened", "statement": "The Discovered and Forgotten handlers are called in the order in which sources were discovered and forgotten, so a consumer that adds on Discovered and removes on Forgotten ends up with the known set.", "quantifier": "every schedule of the handler goroutine", "why_tests_cant": "schedules", "anchors": ["eventsource/discovery.go:Discovery.handleDiscovery"]}
{"id": "C51", "title": "Discovery survives arbitrary messages on the beacon address", "statement": "Messages that are not beacons are skipped; no message can crash Discovery.Run.", "quantifier": "every AMQP message", "why_tests_cant": "message space is unbounded, including absent subject", "anchors": ["eventsource/discovery.go:Discovery.Run"]}
{"id": "C52", "title": "An active source is never forgotten by its watch", "statement": "A watch forgets its source only if no record or heartbeat was handled during the preceding Timeout, and never before GracePeriod+Timeout after it started; with Timeout 0 it never forgets.", "quantifier": "every timing of activity, ticks and timer firings", "why_tests_cant": "real-time schedules", "anchors": ["eventsource/discovery.go:watch.run", "eventsource/discovery.go:watch.advanceLastSeen"]}
{"id": "C53", "title": "A silent source is forgotten, and the watch never blocks itself", "statement": "If activity stops, the next expiry of the watch timer after its last re-arm forgets the source; the timer drain in the watch loop never blocks.", "quantifier": "every timing of activity, ticks and timer firings", "why_tests_cant": "real-time schedules", "anchors": ["eventsource/discovery.go:watch.run"]}
{"id": "C54", "title": "A link never reuses a failed session", "statement": "After an operation on a link fails with a session error, the next operation uses a session of a strictly later generation; generations used by a link never decrease.", "quantifier": "every interleaving of session establishment, link operations and failures", "why_tests_cant": "failure schedules", "anchors": ["session/container.go:link.awaitSession", "session/container.go:link.handleError", "session/container.go:container.awaitNextSession"]}
{"id": "C55", "title": "Errors from an old session never tear down the new one", "statement": "The container restarts only on an error reported for its current generation, at most once per generation, and errors from earlier generations, context cancellation or closed links never cause a restart.", "quantifier": "every interleaving of error reports", "why_tests_cant": "failure schedules", "anchors": ["session/container.go:container.Start", "session/container.go:link.handleError"]}
{"id": "C56", "title": "Operations on a closed link fail promptly", "statement": "After Close, Next, Accept and Send return an error without blocking or looping.", "quantifier": "every state of the link, every context", "why_tests_cant": "non-termination cannot be observed by a test", "anchors": ["session/container.go:link.Next", "session/container.go:link.awaitSession"]}
{"id": "C57", "title": "The requested credit is used", "statement": "A receiver created with ReceiverOptions{Credit: n}, n > 0, is attached with credit n.", "quantifier": "every credit value", "why_tests_cant": "silently ignored option", "anchors": ["session/container.go:ReceiverOptions.get", "session/container.go:link.getReceiver"]}
{"id": "C58", "title": "Link operations honour their context", "statement": "A link operation whose context is cancelled returns.", "quantifier": "every state of the container, every number of failing links", "why_tests_cant": "needs more pending error reports than the queue holds", "anchors": ["session/container.go:link.handleError"]}
{"id": "C59", "title": "Closing a link while it is in use is safe", "statement": "Close concurrent with Next, Accept or Send never panics.", "quantifier": "every interleaving", "why_tests_cant": "needs Close exactly between session wait and link creation", "anchors": ["session/container.go:link.Close", "session/container.go:link.getReceiver"]}
{"id": "C60", "title": "Connections and links are released", "statement": "Every AMQP connection and sender/receiver opened by the container is closed when it is replaced or the link is closed.", "quantifier": "every failure sequence", "why_tests_cant": "failure schedules", "anchors": ["session/container.go:container.Start", "session/container.go:link.Close"]}
{"id": "C61", "title": "Error handlers learn about restarts and about the end", "statement": "Each failed connection attempt or session calls every OnSessionError handler once with a retryable error while the backoff continues; when the backoff gives up the handlers are called once with a non-retryable error; cancellation calls none.", "quantifier": "every sequence of dial/session outcomes", "why_tests_cant": "failure schedules", "anchors": ["session/container.go:container.Start", "session/container.go:errSessionRestart"]}
{"id": "C62", "title": "The mock router multicasts in order", "statement": "Every open receiver subscribed to an address receives each message sent to that address after its subscription exactly once and in send order; other addresses receive nothing.", "quantifier": "every sequence of subscriptions, sends, receives and closes", "why_tests_cant": "schedules", "anchors": ["session/mock.go:multicast.send", "session/mock.go:MockRouter.get"]}
{"id": "C63", "title": "A fixture upload is partitioned by source without loss", "statement": "groupEntriesBySource puts each uploaded entry of a configured type with a parsable record into the group of its source, preserving order, and nothing else.", "quantifier": "every upload", "why_tests_cant": "unbounded uploads mixing sources, types and malformed records", "anchors": ["cmd/vanflow-tool/fixture.go:groupEntriesBySource"]}
{"id": "C64", "title": "vancap derives the API host from the kube config URL", "statement": "The host used for port forwarding is the configured host with its URL scheme removed.", "quantifier": "every host string", "why_tests_cant": "fails only for hosts starting with certain letters", "anchors": ["vancap/main.go:Vancap.Run"]}
{"id": "C65", "title": "Flow replay tolerates half pairs", "statement": "Requesting flow replay when a flow's counterflow is not in the loaded data does not crash the fixture server.", "quantifier": "every set of flow records", "why_tests_cant": "depends on dangling references", "anchors": ["cmd/vanflow-tool/fixture.go:ServeFlows", "cmd/vanflow-tool/fixture.go:fakeFlow"]}
{"id": "C66", "title": "A flush resynchronises a collector", "statement": "Whatever part of the earlier messages a collector got, once a flush message with the record has been queued and everything sent from then on reaches the collector, its copy of the record (absent or stale before) has every attribute of the last published version when all is sent.", "quantifier": "every history before the flush, every schedule of updates, flushes and sends after it", "why_tests_cant": "needs arbitrary prior divergence combined with arbitrary interleavings of the snapshot", "anchors": ["eventsource/manager.go:Manager.serve", "eventsource/manager.go:Manager.flush", "store/patcher.go:recordPatcher.Patch"]}
{"id": "C67", "title": "Keepalives do not flood", "statement": "The number of heartbeats (and of repeated beacons) a manager has begun to send never exceeds the number of full heartbeat (beacon) intervals since it started; and in any stretch of time, after whatever delay, there are at most three more of them than intervals in that stretch.", "quantifier": "every timing of ticks, sends, timeouts and cancellation", "why_tests_cant": "depends on arbitrarily late timers and slow sends", "anchors": ["eventsource/manager.go:Manager.sendKeepalives"]}
{"id": "C68", "title": "Error handlers may use the container", "statement": "A handler registered with OnSessionError can call methods of the container and returns; the container keeps working.", "quantifier": "every state in which handlers are called", "why_tests_cant": "a deadlock in one particular handler, seen only when a session fails", "anchors": ["session/container.go:container.Start", "session/container.go:container.OnSessionError"]}
{"id": "C69", "title": "Operations end when the container has ended", "statement": "When the container has stopped (backoff exhausted or context cancelled), operations waiting for a session return an error.", "quantifier": "every state of the container and its links", "why_tests_cant": "absence of progress: a test cannot observe that something never returns", "anchors": ["session/container.go:container.awaitNextSession", "session/container.go:container.Start"]}
{"id": "C70", "title": "A mock receiver that is not read does not stop the others", "statement": "A Send on the mock router returns when its context ends or when the receiver it waits for is closed; meanwhile receivers can subscribe to the address.", "quantifier": "every schedule of sends, receives, subscriptions and closes", "why_tests_cant": "a test that hangs only when a receiver stops reading with a full buffer", "anchors": ["session/mock.go:mockReceiver.send", "session/mock.go:multicast.send", "session/mock.go:multicast.subscribe"]}
{"id": "C71", "title": "An upload is accepted and loads the last version of every record", "statement": "Whatever is uploaded to the fixture server, the request succeeds, and the store of each source then holds, for each record identity, exactly the last uploaded entry of that source with that identity.", "quantifier": "every upload", "why_tests_cant": "unbounded uploads with repeated identities across sources and types", "anchors": ["cmd/vanflow-tool/fixture.go:fixtureServer.ServeFixture", "cmd/vanflow-tool/serve.go:newFixtureStore"]}
{"id": "C72", "title": "Every uploaded source is impersonated", "statement": "After an upload there is one manager per source, with that source's addresses and that source's records.", "quantifier": "every upload", "why_tests_cant": "needs uploads with sources that agree in one attribute and differ in another", "anchors": ["cmd/vanflow-tool/fixture.go:fixtureServer.Start"]}
{"id": "C73", "title": "Replayed flows have complete and chained histories", "statement": "A replay request for n flows publishes, for each of them, a server flow that names the client flow, and a client flow; each flow has a complete history: the first update, one continuing update per round whose previous value is the value before, and a last one that ends the flow.", "quantifier": "every set of flow pairs, number of flows, and random choices", "why_tests_cant": "unbounded rounds and random choices", "anchors": ["cmd/vanflow-tool/fixture.go:fixtureServer.fakeFlow"]}
{"id": "C74", "title": "vancap cleans up after itself", "statement": "A deployment created by vancap is requested to be deleted exactly once, after everything else, however the run ends (success, error, interruption, panic); and nothing else is deleted.", "quantifier": "every combination of answers from the cluster, the file system and the server", "why_tests_cant": "combinations of failures", "anchors": ["vancap/main.go:Vancap.Run"]}
{"id": "C75", "title": "A reported capture is a capture", "statement": "When vancap reports success the output file holds the records served; when it fails an existing output file is unchanged.", "quantifier": "every combination of answers from the cluster, the file system and the server", "why_tests_cant": "combinations of failures", "anchors": ["vancap/main.go:Vancap.Run"]}
{"id": "C76", "title": "Server verification is off only when the settings say so", "statement": "Whenever vanflow-tool connects, the server certificate is checked against the named CA if the TLS settings in force (those of the flags if -cert is given, else those of connect.json if it names a CA) ask for verification; it is never switched off if they do.", "quantifier": "every combination of flags and files", "why_tests_cant": "the combinations of flags, files present and files missing", "anchors": ["cmd/vanflow-tool/main.go:main", "cmd/vanflow-tool/main.go:tlsConfig.Parse"]}
{"id": "C77", "title": "SASL EXTERNAL is only asked for with a client certificate", "statement": "vanflow-tool asks for SASL EXTERNAL only if it has loaded a client certificate.", "quantifier": "every combination of flags and files", "why_tests_cant": "the combinations of flags, files present and files missing", "anchors": ["cmd/vanflow-tool/main.go:main", "cmd/vanflow-tool/main.go:tlsConfig.Parse"]}
{"id": "C78", "title": "The record server answers with the stored records", "statement": "Whatever the store has been through, a request for / is answered with status 200 and every stored record exactly once, and a request for a type with the records of that type.", "quantifier": "every history of the store", "why_tests_cant": "record contents that make the answer fail, in an unbounded space of histories", "anchors": ["cmd/vanflow-tool/serve.go:serveRecords"]}
{"id": "C79", "title": "A container gives up only after an outage as long as the limit", "statement": "A container whose backoff has a maximum elapsed time ends with a non-retryable error only after having been without a session for about that time; without a maximum it never does.", "quantifier": "every timed execution", "why_tests_cant": "hours of wall-clock time in one particular pattern", "anchors": ["session/container.go:container.Start"]}
{"id": "C80", "title": "A container that cannot connect gives up after the limit", "statement": "A container that does not get a session within the maximum elapsed time of its backoff ends with a non-retryable error.", "quantifier": "every timed execution", "why_tests_cant": "needs several containers of one factory failing and succeeding for longer than the limit", "anchors": ["session/container.go:container.Start", "session/factory.go:factory.Create", "cmd/vanflow-tool/main.go:main"]}
{"id": "C81", "title": "The record server serves the records of the known sources", "statement": "/sources/ lists exactly the sources discovered and not forgotten since; the records served under / are those of listed sources.", "quantifier": "every sequence of discoveries, messages and forgettings", "why_tests_cant": "unbounded sequences of events", "anchors": ["cmd/vanflow-tool/serve.go:serveRecords"]}
{"id": "C82", "title": "A capture can be replayed as a fixture", "statement": "What the record server answers to a request for all records can be uploaded to the fixture server as it is: each source then holds exactly the captured records of its configured types, with the source, update time, annotations, kind and every field unchanged.", "quantifier": "every history of received messages, every record of every built-in kind, every representable time", "why_tests_cant": "all records and times that one side can write and the other has to read", "anchors": ["cmd/vanflow-tool/serve.go:serveRecords", "cmd/vanflow-tool/fixture.go:ServeFixture", "cmd/vanflow-tool/fixture.go:groupEntriesBySource", "cmd/vanflow-tool/api.go:PartialEntry", "base.go:Time"]}
{"id": "C83", "title": "Every discovered source is flushed while the tool runs", "statement": "For every discovered source the tool gets a flush request accepted by the source's sender, after the first message or after five seconds, unless the tool is shut down.", "quantifier": "every sequence of messages, time-outs, send results and shutdown", "why_tests_cant": "the schedules of the five-second limit against messages, send errors and shutdown", "anchors": ["cmd/vanflow-tool/serve.go:serveRecords", "cmd/vanflow-tool/log.go:logOnly", "eventsource/flush.go:FlushOnFirstMessage"]}
{"id": "C84", "title": "The log mode writes every message it handles", "statement": "Every heartbeat or record message handed to the handlers of the log mode is written to standard output as one line that describes it, each once, and those of one client in the order in which they were handled.", "quantifier": "every interleaving of any number of clients, every message", "why_tests_cant": "unbounded interleavings, and message contents that cannot be encoded", "anchors": ["cmd/vanflow-tool/log.go:logOnly"]}
{"id": "C85", "title": "NewBase sets what it is given", "statement": "NewBase(id, times...) sets the identity, the first time as start and the second as end; it panics exactly if given more than two. A record of any built-in kind with that base, a non-empty identity and representable times can be encoded, with exactly these values in attributes 1, 3 and 4.", "quantifier": "every identity, list of times, built-in kind and other fields", "why_tests_cant": "all kinds, with any other field values", "anchors": ["base.go:NewBase"]}
{"id": "C86", "title": "Every registered kind of record can be received", "statement": "A RECORD message made of well-formed records of registered kinds is delivered with all of them.", "quantifier": "every message made of well-formed records", "why_tests_cant": "all mixtures of kinds in a message", "anchors": ["records.go:init", "messages.go:DecodeRecord"]}
{"id": "C87", "title": "Flush requests are coalesced, and only counted once", "statement": "Every flush the manager begins is for at least one request of its own and for at most 2049; no flush is begun without a request, and without FlushDelay there is exactly one flush for each request that found room in the queue.", "quantifier": "every schedule of requests, flushes and updates in which no request finds the queue full", "why_tests_cant": "the count is a property of whole histories, and the bound of 2048 drained requests is out of reach of a test", "anchors": ["eventsource/manager.go:serve", "eventsource/manager.go:nextN"]}
{"id": "C88", "title": "An upload replaces the one before it", "statement": "At any time the managers that run are those of a single upload: the last one received or, until they are told to stop, the one before. When the server waits for the next upload, exactly the managers of the last one run, once each, /flows sees them and the status is running; nothing of earlier uploads is left. The status in an answer is one the server had after the request came in.", "quantifier": "every interleaving of any number of requests, uploads, replays and the goroutine of Start", "why_tests_cant": "unbounded histories of concurrent uploads", "anchors": ["cmd/vanflow-tool/fixture.go:Start", "cmd/vanflow-tool/fixture.go:ServeFixture", "cmd/vanflow-tool/fixture.go:ServeFlows"]}
{"id": "C89", "title": "Every request to the fixture server is answered", "statement": "Every request is answered once: an upload that can be read after it has been received by the goroutine of Start, one that cannot be read with an error. When nothing more comes from outside the server comes to rest, and then every request is answered whose client has sent all of it.", "quantifier": "every interleaving of any number of requests, with clients that may be slow or stop, and shutdown", "why_tests_cant": "deadlocks and starvation by other clients show only in particular schedules", "anchors": ["cmd/vanflow-tool/fixture.go:ServeFixture", "cmd/vanflow-tool/fixture.go:ServeFlows", "cmd/vanflow-tool/fixture.go:Start"]}
{"id": "C90", "title": "A replay ends and is counted", "statement": "Every replay started by a request to /flows ends, once, and the number of replayed flows in the answers is that of the replays that have ended.", "quantifier": "every interleaving of replays of any size, managers and uploads that replace the managers", "why_tests_cant": "needs more updates than the queue holds and an upload at the wrong moment", "anchors": ["cmd/vanflow-tool/fixture.go:fakeFlow", "cmd/vanflow-tool/fixture.go:ServeFlows", "eventsource/manager.go:PublishUpdate"]}
{"id": "C91", "title": "The capture reports what happened to it", "statement": "Vancap.Run reports success exactly if the forwarded port became ready, the output file was created, the request was answered and the whole answer was written; otherwise it reports an error and does not panic. The port forward running beside it does not change that.", "quantifier": "every interleaving of Run with the goroutine of the port forward, which may end at any time with or without an error", "why_tests_cant": "the loss of the connection has to fall between an assignment of err and the test that follows it", "anchors": ["vancap/main.go:Vancap.Run"]}
{"id": "C92", "title": "The serve and fixture commands end when they should", "statement": "The commands return only after an interrupt or after their container has given up, and their server has ended then. After an interrupt, after the container has given up, and when the server cannot listen they do return. Requests being answered are given a second.", "quantifier": "every interleaving of the command, its server and its container with signals and requests", "why_tests_cant": "needs a port that is taken, or a container that gives up at one particular moment", "anchors": ["cmd/vanflow-tool/serve.go:serveRecords", "cmd/vanflow-tool/fixture.go:serveFixture", "cmd/vanflow-tool/main.go:main"]}
{"id": "C93", "title": "Shared variables are protected", "statement": "No two goroutines touch the same variable at the same time, one of them writing it: containers, links, clients, discovery, stores, the mock router, the registry of record types and the fixture server may be used by any number of goroutines at once.", "quantifier": "any number of goroutines making any calls on any objects, in every interleaving", "why_tests_cant": "the race detector sees only the accesses of the schedules that were run", "anchors": ["session/container.go:handleError", "session/container.go:awaitSession", "session/container.go:Start", "eventsource/client.go:getHandlers", "eventsource/discovery.go:observe", "store/internal/cache.go:Patch", "store/internal/cache.go:Index", "session/mock.go:send", "encoding/encoding.go:MustRegisterRecord", "encoding/encoder.go:Encode", "cmd/vanflow-tool/fixture.go:ServeFlows", "store/dispatch.go:RegisterStore"]}
{"id": "C94", "title": "Locks are given back and never block each other", "statement": "On every path through every function a lock is released exactly as often as it is taken and is not taken again while held. Goroutines never wait for each other's locks in a circle, also when a waiting writer keeps new readers of an RWMutex out.", "quantifier": "every path of every function that takes a lock; any number of goroutines making any calls, in every interleaving", "why_tests_cant": "a path that keeps a lock, or two locks taken in opposite order, is a matter of rare branches and schedules", "anchors": ["session/container.go:Start", "session/container.go:getReceiver", "eventsource/client.go:Close", "eventsource/discovery.go:Forget", "store/internal/cache.go:Replace", "session/mock.go:subscribe", "encoding/decoder.go:Decode", "cmd/vanflow-tool/fixture.go:ServeFlows"]}
{"id": "C95", "title": "Each path of the servers is answered by its own handler", "statement": "The record server can be set up whatever records are included (no pattern is registered twice). Every path it lists in Refs is answered by the handler of that path: / by the list of everything, /sources/ by the sources, the path of a type by the records of exactly that type. A listed path without its last slash is redirected to it, any other way to write a path to its shortest form, so that every request is answered after one redirect at most. Every path that is not listed is answered with 404. The fixture server answers /flows with the flows and every other path with the fixture.", "quantifier": "all paths, all settings of include-flows and include-logs", "why_tests_cant": "the set of paths is infinite; that an unlisted path below a listed one is answered is seen only by a test that asks for such a path", "anchors": ["cmd/vanflow-tool/serve.go:serveRecords", "cmd/vanflow-tool/fixture.go:serveFixture"]}
{"id": "C96", "title": "A source that sends its heartbeats is not forgotten", "statement": "A watch whose Timeout is longer than the longest time between two heartbeats of the source (its interval, a late tick and the sends that come first) plus the time a delivery takes never forgets that source, provided the source had announced itself and the client listened early enough. Sends return within their delivery timeout.", "quantifier": "all intervals, timeouts and delays; every interleaving of the source's goroutine, its tickers, the deliveries, the handler and the watch", "why_tests_cant": "the unlucky order (a tick that is late, beacons preferred by the select, a slow send, the timer firing just before the message is recorded) is rare and depends on real time", "anchors": ["eventsource/manager.go:sendKeepalives", "eventsource/manager.go:sendWithTimeout", "eventsource/discovery.go:run", "eventsource/discovery.go:newWatch"]}
{"id": "C97", "title": "A silent source is forgotten in time", "statement": "Once no more messages of a source are handled, its watch forgets it no later than a Timeout after the watch's next look at the activity (one period of its ticker after the last message), or after GracePeriod plus Timeout from the start if that is later; timers that are late add their lateness twice.", "quantifier": "all settings of Timeout, GracePeriod and interval; every interleaving of the watch with its timer, its ticker and the handlers", "why_tests_cant": "needs timers and ticks that fire together, in either order, while a message is being recorded", "anchors": ["eventsource/discovery.go:run", "eventsource/discovery.go:advanceLastSeen"]}
{"id": "C98", "title": "A field type that registration accepts can be sent and received", "statement": "MustRegisterRecord accepts a tagged field only if values of its type survive: whatever Encode produces for the field, carried over AMQP (which knows predeclared types only), Decode turns back into the same value, and neither panics. This includes defined scalar types, types with one or both of the codec methods on either receiver, interfaces, and any number of pointers to these.", "quantifier": "all Go types of fields, all method sets of the codec interfaces, all values", "why_tests_cant": "the types of a test suite are a handful; method sets, receivers, kinds and pointers combine freely", "anchors": ["encoding/encoder.go:getFieldEncoder", "encoding/decoder.go:getFieldDecoder", "encoding/decoder.go:decode", "encoding/encoding.go:fieldsForType"]}
{"id": "C99", "title": "A manager stops when its context ends", "statement": "When the context given to Manager.Run ends, the goroutine that serves updates and flushes returns: at each point where it waits it can stop, and between two such points it moves at most once per store and three times more, whatever publishers, stores, flush requests and the sender do. It stops for no other reason, and once it has stopped it takes and queues nothing more. The goroutine that sends returns as well, as soon as the Send it may be in ends, and then sends nothing more.", "quantifier": "every number and content of stores, every state of the three queues, every interleaving of publishers, flush requests, store writes, sender and cancellation", "why_tests_cant": "cancellation can fall between any two steps, with full or empty queues, in the middle of a flush", "anchors": ["eventsource/manager.go:Manager.serve", "eventsource/manager.go:Manager.sendRecords", "eventsource/manager.go:nextN", "store/cache.go:applySelector"]}
{"id": "C100", "title": "What a source publishes reaches the stores of a collector, whatever the interleaving", "statement": "A source with its manager, the router, and a collector's client with its dispatcher and stores run together. The receiver is subscribed and the dispatcher registered before the source publishes. No handler call of the collector panics and every message that arrives can be decoded. When all is published, sent, received and handled, and the receiver was not closed, the client was given exactly the messages of the manager, in order, and the stores are what accumulating these messages gives. If moreover no send failed, the collector's entry of a record has, for every attribute, the last value published, and comes from the source.", "quantifier": "every interleaving of publisher, manager, senders, router, listeners, handlers and other users of router and client; every record and sequence of versions; every configuration of stores and registrations of handlers", "why_tests_cant": "five goroutines and three queues between a publication and the store", "anchors": ["eventsource/manager.go:Manager.sendRecords", "eventsource/manager.go:Manager.serve", "session/mock.go:multicast.send", "session/mock.go:mockReceiver.Next", "eventsource/client.go:Client.Listen", "store/dispatch.go:DispatchRegistry.dispatch"]}
{"id": "C101", "title": "Publishers wait only while the manager is behind, and the manager's queues are bounded", "statement": "At most 256 updates, 8 flush requests and 256 messages are queued in a manager. PublishUpdate waits exactly while 256 updates are queued, and a publication that waits gets through: nothing but a send that does not end keeps it waiting.", "quantifier": "every schedule of publishers, flush requests, sends and cancellation; every configuration and content of stores", "why_tests_cant": "queues have to be full; the waiting publisher has to meet every state of the other goroutines", "anchors": ["eventsource/manager.go:Manager.PublishUpdate", "eventsource/manager.go:NewManager", "eventsource/manager.go:Manager.serve", "eventsource/manager.go:Manager.sendRecords"]}
{"id": "C102", "title": "Left alone, source, router and collector come to rest, and by then everything has arrived", "statement": "Once the publisher stops, the goroutines between a source and a collector's stores make a bounded number of moves, whatever the schedule. If the manager is running, no other receiver on the address is full and nobody is closing the client, they cannot get stuck on the way: when none of them can move, the manager's queues and the receiver's channel are empty, no Send is under way and the listener waits for a message; and so the collector's store has, for every attribute of a published record, the last value published (if no Send failed and the manager did not panic).", "quantifier": "every interleaving before and after the last publication; every configuration, content of stores, number of receivers and handlers", "why_tests_cant": "termination is about all schedules; a deadlock between five goroutines and four queues may need a rare one", "anchors": ["eventsource/manager.go:Manager.serve", "eventsource/manager.go:Manager.sendRecords", "session/mock.go:multicast.send", "session/mock.go:mockSender.Send", "session/mock.go:mockReceiver.Next", "eventsource/client.go:Client.Listen", "eventsource/client.go:Client.getHandlers"]}
{"id": "C103", "title": "Every entry that is in a store of the manager all through a flush is in one of its messages, however the stores are written meanwhile", "statement": "A flush lists a store page by page, and the owner may write the store between the pages. Every entry that is in a store of the manager from the beginning of a flush to its end is in one of the flush's messages, with its content at the time its page was listed. (As written the code keeps this only if no smaller key is deleted meanwhile: then an entry moves to a page that was already sent, and the flush skips it.)", "quantifier": "every interleaving of the flush with writes to all stores; every number of stores, batch size, content and continuation", "why_tests_cant": "the delete must fall between two pages of one flush and hit a key before the page boundary; tests flush stores that nobody writes", "anchors": ["eventsource/manager.go:Manager.serve", "store/cache.go:objectCache.List"]}
{"id": "C104", "title": "A collector that joins late has everything after a flush", "statement": "A source has been running and publishing, its messages were sent or lost. A collector subscribes, and some time after that a flush message arrives at the manager. Once everything is published, sent, received and handled (which the goroutines reach, left alone), the collector's store has an entry of the record with every attribute of its last version, whatever stale entry it had before \u2014 provided that from the flush message on the record stays in a store of the manager, no smaller key is deleted from that store, and no message is lost on the manager's side.", "quantifier": "every interleaving of source, manager, router, client and stores, before and after the joining; every content of the collector's store", "why_tests_cant": "the joining may fall between any two steps of a running source, e.g. between a page of a flush and the update it overlaps with", "anchors": ["eventsource/manager.go:Manager.serve", "eventsource/manager.go:Manager.listenFlushes", "eventsource/manager.go:Manager.sendRecords", "session/mock.go:multicast.send", "eventsource/client.go:Client.Listen", "store/cache.go:objectCache.List"]}
{"id": "C105", "title": "Nothing a collector shows is made up", "statement": "At every time, whatever was lost before and however source, router and collector interleave: every attribute that the collector's entry of a record shows is an attribute of one of the versions that the source has had of it, or of the stale entry of the record that the collector had when it joined.", "quantifier": "every interleaving of source, manager, router, client and stores; every loss; every time of joining; every content of the collector's store", "why_tests_cant": "a wrong merge of an old and a new version is visible for a moment only, and only in some schedules", "anchors": ["eventsource/manager.go:Manager.serve", "eventsource/manager.go:Manager.sendRecords", "eventsource/manager.go:nextN", "eventsource/client.go:Client.Listen", "store/cache.go:objectCache.Patch"]}
{"id": "C106", "title": "What a collector shows does not go back to an older version", "statement": "While no message is lost, a collector that was there from the start shows at every time, attribute by attribute, the latest value in the first m versions of the record, and m does not fall over time. (As written the code keeps this only if flushes send nothing of the record that was not sent before: a flush that is served while updates wait in the queue shows the newest version first and then the older ones again.)", "quantifier": "every interleaving of source, manager, router, client and stores; every pair of times; every sequence of versions", "why_tests_cant": "the flush request has to be served while updates of the record are queued, and the collector has to be looked at in between", "anchors": ["eventsource/manager.go:Manager.serve", "eventsource/manager.go:Manager.PublishUpdate", "eventsource/manager.go:nextN", "store/cache.go:objectCache.Patch"]}
{"id": "C107", "title": "A flush request that is sent to a source is served", "statement": "After a collector has joined, somebody sends a message to the direct address of the source, to which the manager's flush receiver is subscribed. As long as the context of the manager has not ended, that message makes the manager receive a flush request, and once everything is handled the collector's store has an entry of the record with every attribute of its last version (under the conditions of C104, from the time of the request on). While a request waits at the receiver or is in hand, listenFlushes can move.", "quantifier": "every interleaving of the requester, listenFlushes, manager, router, client and stores; any number of further requests, served or dropped because the queue is full", "why_tests_cant": "the request passes the router, a goroutine and a queue that drops; which of several requests is dropped depends on the schedule", "anchors": ["eventsource/manager.go:Manager.listenFlushes", "session/mock.go:multicast.send", "session/mock.go:mockReceiver.Next", "eventsource/manager.go:Manager.serve", "eventsource/client.go:Client.Listen"]}
{"id": "C108", "title": "A collector that discovers a source and reports \"flush sent\" gets what the source has", "statement": "The vanflow-tool listens to a discovered source and asks for a flush with the first message it gets, or after five seconds. When the flush goroutine has ended without an error and everything is handled, the collector's store has an entry of the record with every attribute of its last version. Negated by the code: the first message may come on the heartbeat listener, or the five seconds may pass, before the receiver of the record listener is subscribed; the source then sends everything it has, but not to this collector. Proved when the receiver is subscribed before the Send of the flush message is called, in particular when the first message comes within the five seconds on the listener to the source's address.", "quantifier": "every interleaving of the flush goroutine, both Sends of it, the listeners, listenFlushes, manager, router and stores; the source may have done anything before, and a Send of it may be under way when the collector comes; any record, any conditions of C104", "why_tests_cant": "the order in which two goroutines of the client subscribe, and whether a heartbeat comes in between, is up to the scheduler", "anchors": ["cmd/vanflow-tool/serve.go:serveRecords", "eventsource/flush.go:FlushOnFirstMessage", "eventsource/client.go:Client.SendFlush", "eventsource/client.go:Client.Listen", "eventsource/manager.go:Manager.listenFlushes"]}
{"id": "C109", "title": "A running source is discovered, with its data", "statement": "A discovery is subscribed to the address of the beacons, and after that a manager's Send of a beacon ends without an error. Once the Sends to that address have returned, the receiver's channel is empty and Run waits for the next message, a beacon with the identity, version, type and addresses of the manager's configuration has been observed; the source is known unless it was forgotten since, and once the discoveries are handled the handler has been called for it; under the addresses of the configuration. The last part is negated by the code: of a source that was announced before with other addresses, those stay. Proved when every beacon with that identity, and every Add of it, has the same data.", "quantifier": "every interleaving of the keepalive goroutine, router, Discovery.Run, the callers of the discovery's methods and the handlers, from the start of all of them; any other users of the router, who may send any messages to the address of the beacons, before and after", "why_tests_cant": "a beacon passes three goroutines and two queues, and whether it is lost depends on when the receiver is subscribed and on what others send", "anchors": ["eventsource/manager.go:Manager.sendKeepalives", "eventsource/discovery.go:Discovery.Run", "eventsource/discovery.go:Discovery.observe", "session/mock.go:multicast.send", "messages.go:DecodeBeacon"]}
{"id": "C110", "title": "What is started for a source is released when the source is forgotten", "statement": "For every discovered source, serve and log start a container, a client that listens at the addresses asked for by the flags and the source's type, and a watch. A known source is looked after at exactly one place: it waits for the handler, is being handled, or is watched once. When the source has been forgotten and its client is closed, nothing of what was started for it is left: no listener, no handler call, no container. The client is closed once, and the handlers are registered before the first listener starts.", "quantifier": "every interleaving of beacons, discovery handlers, watches, listeners, messages and shutdown, with any number of sources, for both commands and all flags", "why_tests_cant": "leaks show only after many discoveries and forgettings, and a handler that is slower than its watch is a matter of schedules", "anchors": ["cmd/vanflow-tool/serve.go:serveRecords", "cmd/vanflow-tool/log.go:logOnly", "eventsource/discovery.go:Discovery.NewWatchClient", "eventsource/discovery.go:watch.run", "eventsource/client.go:Client.Close", "eventsource/client.go:Client.Listen"]}
{"id": "C111", "title": "A receiving goroutine handles each message once and nothing else", "statement": "Client.Listen, Manager.listenFlushes and Discovery.Run each receive in a loop from a link of the session container. Whatever sessions fail, each handles every message it receives exactly once, in order, and nothing besides, it sees no error of Next and does not end while its context has not ended; after that, Next returns at most two errors besides the error of the context, and one more per session established. False for listenFlushes after its context has ended (a flush is queued, and AcceptMessage called, for a nil message) and for Client.Listen when accepting a message fails (the message is dropped). Only the use of a closed link gives errLinkClosed.", "quantifier": "every history of the container, every interleaving of session failures, attach failures, receive and accept errors, other users of the container, and the end of the context", "why_tests_cant": "the context has to end between the failure of a call and the check of the context", "anchors": ["eventsource/manager.go:Manager.listenFlushes", "eventsource/client.go:Client.Listen", "eventsource/discovery.go:Discovery.Run", "session/container.go:link.Next", "session/container.go:link.Accept", "session/container.go:link.handleError"]}
{"id": "C112", "title": "JSON text is read as what it stands for, and written so that it is read back", "statement": "The text of requests and answers: json.Unmarshal accepts exactly the JSON texts of RFC 8259 (with U+FFFD for halves of surrogate pairs) and gives the value the text stands for; what Encode writes is such a text, stands for the value written, holds no control character or HTML character, and is one line; and the text of an answer of the record server, uploaded to the fixture server, gives every source the entries the answer had for it. A request body that is not a JSON text is refused: false, Decode takes the first value and whatever follows it is ignored.", "quantifier": "every text, every JSON value without fractions, every list of entries, every history of the record server", "why_tests_cant": "there are infinitely many texts; escapes, surrogates, white space and number syntax combine", "anchors": ["cmd/vanflow-tool/fixture.go:fixtureServer.ServeFixture", "cmd/vanflow-tool/serve.go:serveRecords", "cmd/vanflow-tool/api.go:RecordsResponse", "cmd/vanflow-tool/api.go:ReplaceRequest"]}
{"id": "C113", "title": "The log mode prints one JSON line per message, and the line shows everything", "statement": "In every run of the log mode, standard output consists of lines, one for each message written and in that order; each is a JSON object that shows the addresses, version, time and identity of a heartbeat, and for records the type names and JSON from which every field can be read back; for messages that cannot be encoded nothing is printed.", "quantifier": "every run of the handlers and of the writer, every message with records as they come out of messages", "why_tests_cant": "depends on the text of arbitrary values and on the interleaving of listeners", "anchors": ["cmd/vanflow-tool/log.go:logOnly", "cmd/vanflow-tool/log.go:Message", "cmd/vanflow-tool/log.go:RecordData"]}
{"id": "C114", "title": "A collector recovers from a lost connection", "statement": "When the connection of a collector is lost and the container has made another, the collector's stores come to show again what the sources have: an update sent while there was no connection is not missing for good once everything is quiet. FALSE in the code: the link makes a new receiver inside Next, the client and serve do not notice, and the flush is asked for once per discovery, so what was sent in between is missing until the source changes the same attributes again. What holds: whatever was missed, nothing in the stores is made up and the dispatcher does not panic; and if a flush message reaches the manager after the new receiver was subscribed, and nothing is lost from there on, the collector has every attribute of the last version.", "quantifier": "all sources, versions, interleavings of source, manager, router and collector, any number of lost connections", "why_tests_cant": "A test would have to lose the connection at a chosen moment, and can do so for a few moments only; that the stores stay wrong forever is not observable in a finite test.", "anchors": ["session/container.go:313-325", "session/container.go:341-370", "session/container.go:386-402", "eventsource/client.go:97-110", "cmd/vanflow-tool/serve.go:121-176"]}
{"id": "C115", "title": "The command line means what it says", "statement": "Whatever its arguments, vanflow-tool either runs the command that is named, once, with every flag at the value given last or else at its documented default, or it exits with a status that is not 0 (0 only if help was asked for). No flag is accepted and then ignored: the connection is made with the address and the TLS settings of the command line.", "quantifier": "all argument lists, all file systems", "why_tests_cant": "The parsing depends on the order and the form of all words (one or two dashes, value after an equals sign or in the next word, on/off flags which never take the next word, `--`); a test tries a few command lines, and an ignored TLS flag shows only with a server that has the wrong certificate.", "anchors": ["cmd/vanflow-tool/main.go:19-63", "cmd/vanflow-tool/main.go:64-70", "cmd/vanflow-tool/main.go:103-148"]}
{"id": "C116", "title": "A connect.json is read as it is written, and its settings take effect", "statement": "The tool goes on with a file given by -messaging-config exactly when its text is one JSON value, null or an object, in which every setting the tool knows has a value of its kind (a string, for verify a boolean, for tls an object) or null. The settings are then the last values given, names compared regardless of case, several tls objects read as one, everything else ignored. The tool connects to scheme://host:port of the file, checks the server exactly when the file says so, against the CA of the file, and uses the certificate and key of the file.", "quantifier": "For all texts of the file, all ways of comparing names that tell the settings apart, all flags and all contents of the file system.", "why_tests_cant": "The texts are infinitely many, and repeated members, null values, differences of case and values of the wrong kind combine; a test reads a few files.", "anchors": ["cmd/vanflow-tool/main.go:79-101", "cmd/vanflow-tool/main.go:150-162", "cmd/vanflow-tool/main.go:164-189"]}
{"id": "C117", "title": "A field whose tag names a vflow code is part of the record", "statement": "A field of a registered struct whose tag gives vflow a value becomes a field of the record with the code of that value, or registering the type panics; it is never left out silently. The tags of the built-in records give the codes they are meant to give.", "quantifier": "all tags (as written between the backquotes), all field names and types", "why_tests_cant": "The tags are compiled in, so a test sees only the tags that exist, and a field left out is visible only as an attribute missing from messages; which malformed tags are passed over is a matter of all texts.", "anchors": ["encoding/encoding.go:110-133", "encoding/encoding.go:182-218", "base.go:25-29", "records.go:27-221"]}
{"id": "C118", "title": "Messages survive the wire", "statement": "Every message vanflow's encoders return can be written in AMQP 1.0, in any order of the entries of its Go maps. Whatever conforming octets carry its sections to the receiver - the octets written, the same values in other forms of the standard, sections added by routers - are read back into Go values of exactly the types the decoders assert, and decode to the beacon, heartbeat, flush or records that were sent. A record whose keys are all strings comes back with another Go type and its whole message is refused.", "quantifier": "all messages of the four kinds (records of every built-in type), all orders of map entries, all encodings the standard allows for each value, all sections a router may add; messages shorter than 2^32 octets", "why_tests_cant": "Tests pass messages in memory or through one library on both ends, so they see one form of each value; a router or another peer may choose any of the forms, and the Go type a value is read as decides whether a decoder takes it.", "anchors": ["messages.go:43-232", "encoding/encoder.go:25-60", "encoding/decoder.go:22-47", "session/container.go:386-445"]}
{"id": "C119", "title": "A message that cannot be sent costs only itself", "statement": "When the AMQP library refuses a message for its contents or its length, the Send of that message fails and nothing else: the session goes on and the other links of the container are not disturbed.", "quantifier": "all executions of a container with any number of links whose operations do not overlap per link, all errors that are neither the end of a context nor a closed link; all messages the encoders return", "why_tests_cant": "Tests send messages that are accepted. What a refused message costs shows on other links, after a reconnection.", "anchors": ["session/container.go:327-356", "session/container.go:428-445", "session/container.go:188-207"]}
{"id": "C120", "title": "A message is accepted on the session it came from", "statement": "Accept asks its link for a receiver anew, and the delivery number of a message means another message on another session. Whatever happens to sessions and other links after Next has returned a message, as long as the link is then only used to accept, it uses no other session than the one the message came with, attaches to none and reports no error.", "quantifier": "all executions of a container whose links are each used by one goroutine (as the receive loops of vanflow do), any number of links, failures and reconnections, Close at any time", "why_tests_cant": "Needs a session to be replaced between Next and Accept; the wrong acceptance would show in what a router forgets.", "anchors": ["session/container.go:404-426", "session/container.go:293-311", "session/container.go:359-371", "eventsource/client.go:97-135", "eventsource/manager.go:308-326", "eventsource/discovery.go:50-71"]}
{"id": "C121", "title": "A record that can be sent can be kept and published", "statement": "A record of a registered type that encodes without error, decodes to what it was and survives the wire can be accumulated in a store that has a record with its key, and an update of it can be published, without a panic.", "quantifier": "every record type, with field types that encode themselves to values of any Go type, every record, every store content", "why_tests_cant": "the record types of the package have only scalar attributes; a panic needs a type that encodes to a slice or map, as []byte", "anchors": ["store/patcher.go:39-48", "eventsource/manager.go:115-132", "encoding/encoder.go:27-31"]}
{"id": "C122", "title": "The first heartbeat timeouts are ignored, later ones have consequences", "statement": "Of the heartbeats that time out, exactly those before any other outcome, and at most three, are ignored; after that the connection is aborted (manager.go:291-295).", "quantifier": "every sequence of heartbeat outcomes, timers and cancellation", "why_tests_cant": "unbounded sequences of outcomes; a test would have to wait for timeouts", "anchors": ["eventsource/manager.go:274-306"]}
{"id": "C123", "title": "An operation waits for no other operation's network call", "statement": "A Send, Next or Accept never waits for go-amqp to answer another operation on the same link, nor for Close of the link: the mutex of the link is held for its own calls only.", "quantifier": "every run of the container, the connections, the links and their operations in which attaching a link, closing a receiver and closing the previous connection take time", "why_tests_cant": "needs a network call that takes its time and another goroutine on the same link meanwhile; every interleaving is covered", "anchors": ["session/container.go:293-310", "session/container.go:352-384", "session/container.go:447-457", "session/container.go:181-192"]}
{"id": "C124", "title": "A container can be started again", "statement": "A container that has ended, by its context or its backoff, and is started again works as before: links that wait for a session get the new one, and a session is given up for its own errors only.", "quantifier": "every run of any number of calls of Start, one after the other or at once, sessions, links and session errors", "why_tests_cant": "needs a second Start after a first that served sessions, with links that live longer than the first", "anchors": ["session/container.go:157-231", "session/container.go:131-144", "session/container.go:348-355"]}
{"id": "C125", "title": "Listen and Close may be called at the same time", "statement": "However calls of Listen and Close of one client overlap, neither they nor the goroutines of the listeners panic, and Close returns once all listeners have left.", "quantifier": "every interleaving of any number of Listen calls, their goroutines and Close, with the atomic steps of sync.WaitGroup", "why_tests_cant": "the panics need a Listen within a few instructions of the last listener's end while Close waits", "anchors": ["eventsource/client.go:87-96", "eventsource/client.go:139-147"]}
{"id": "C126", "title": "What the mock router says it has sent has a receiver", "statement": "When Send on the mock router returns nil, some receiver has got the message; with no receiver to take it, Send waits for one.", "quantifier": "every run of the mock router: any number of addresses, senders and receivers, closed at any time, and every interleaving of their steps", "why_tests_cant": "needs a Send after all receivers of the address have been closed, and a look at who got the message", "anchors": ["session/mock.go:92-109", "session/mock.go:112-118", "session/mock.go:126-133"]}
{"id": "C127", "title": "GET /flows lists the pairs of flows", "statement": "The answer to GET /flows lists exactly the pairs of an uploaded flow and the uploaded flow it names as its counterflow, each pair once.", "quantifier": "every upload, any number of sources and flows, and every order in which Go goes through the maps", "why_tests_cant": "needs flows with the same ID in two sources, or a flow without its counterflow; the order of the maps is random", "anchors": ["cmd/vanflow-tool/fixture.go:191-220", "cmd/vanflow-tool/fixture.go:242-252"]}
{"id": "C128", "title": "What changes after a collector has joined arrives without a flush", "statement": "A collector has joined a source that may have done anything before, or has another receiver after it lost its connection and missed any number of messages. If an attribute of a record changes from there on, and the manager loses no message from there on, then once everything is published, sent, received and handled the collector's store has an entry of the record in which that attribute has its latest value, also if nobody ever asks for a flush.", "quantifier": "all sources, versions, attributes, interleavings of source, manager, router and collector, any number of lost connections, a Send under way when the receiver is subscribed", "why_tests_cant": "needs the change at every point of every interleaving, before and while the receiver is subscribed; a test tries a few, and with a flush the omission of a delta is hidden.", "anchors": ["eventsource/manager.go:80-99", "eventsource/manager.go:101-142", "eventsource/manager.go:144-226", "session/container.go:313-325", "eventsource/client.go:87-138"]}
{"id": "C129", "title": "Collectors of one source agree", "statement": "Any number of collectors listen to one source; some were there from the start, others join later. When everything is published, sent, received and handled, nothing was lost and a flush was served after the last of them joined, their entries of a record have the same attributes with the same values. FALSE in the code: an attribute that is taken away cannot be told (C35), so a collector that was there before shows it for good while one that joins afterwards never has it, in spite of the flush. What holds: all collectors have every attribute of the last version; of attributes that change after the last has joined they show the same values without a flush; collectors that were all there from the start agree on everything; and where two differ, the attribute has been taken away, so without that they agree on everything.", "quantifier": "all sources, versions, numbers of collectors, interleavings of source, manager, router and all collectors", "why_tests_cant": "needs two collectors that join at different times, and every interleaving of both with the source; a test that compares a collector with the source does not see two of them disagree.", "anchors": ["eventsource/manager.go:101-142", "eventsource/manager.go:178-222", "eventsource/client.go:87-138", "session/mock.go:92-124", "store/dispatch.go:1-61"]}
