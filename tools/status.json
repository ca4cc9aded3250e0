{
 "C01": {
  "note": "Any struct type, any lawful codecs. Excludes attribute code 0 (as stated); the two hypotheses are shown necessary by counterexample theorems."
 },
 "C05": {
  "note": "False of the code: a null attribute panics (C05_counterexample). Partial: the only cause of a panic is a null under a code of the record type."
 },
 "C07": {
  "note": "False of the code: pointers to zero values are not sent (C07_counterexample). Partial: transmitted iff non-zero."
 },
 "C100": {
  "note": "C100_no_panic and C100_delivered hold for collectors that join at any time (Sys.Join): the source may have done anything before. C100_converges is for collectors that were there before the source started (Sys.Start); for late ones see C104."
 },
 "C101": {
  "note": "Proved: the bounds, and when a publication waits. Getting through is proved while the manager runs; false once it has stopped (PublishUpdate does not watch the context): C101_stopped_counterexample."
 },
 "C102": {
  "note": "Own moves are the steps of serve, sendRecords, the Send it is in, and the listener (Spec/Progress). C102_bounded: a bound for runs of own moves from any reachable state whose manager stores are in good order (StoreOK, as in C39); C102_rest and C102_rest_conv: at rest exactly when worked off; C102_arrives: with C100, the entry in the collector's store. Conditions that are not derived: no other receiver on the address is full in the last state (see C70), the manager has not panicked, no Send failed (Lossless), nobody is closing the client (see C43, C44)."
 },
 "C103": {
  "note": "C103_flush_writes_partial: for an entry of which P holds all the time (Stays in Spec/Resync), some message of the flush has it in a version it had during the flush. Missing: deletes of smaller keys during the flush, for which the claim is false (C103_counterexample: three hosts, page size two, the first is deleted after the first page; the third is never sent)."
 },
 "C104": {
  "note": "C104_resync: at a time when all is handled (Still); C104_before: the collector may come at any time, also while a message is being sent, and its receiver be subscribed later, but before the flush message; C104_arrives: with C102, when the goroutines are left alone until they cannot move; C104_exact: with no entry before and no attribute ever cleared, the entry has exactly the attributes of the last version. The condition Stays of C103 is an assumption; without it a flush may miss the record (C103_counterexample). That the flush message gets from the router to the manager is C107."
 },
 "C105": {
  "note": "C105_honest: for collectors that join at any time (Sys.Join), with any losses. The collector's stale entry, if any, is one of the record type of the id."
 },
 "C106": {
  "note": "C106_forward_partial: for collectors that are there from the start, while nothing is lost and no flush sends the record (NotFlushed). Missing: flushes of the record, for which the claim is false (C106_counterexample: a host is written and renamed, the flush is served before the two updates are taken; the collector shows y, then x, then y).  C106_told_partial: flushes may send the record if each attribute they send has the value that was sent last (OnlyTold, in Spec/Told); no flush at all is a special case (notFlushed_told). C106_calm: the condition OnlyTold holds if, whenever a flush message is queued, every version of the record is published and no update of it waits in the change queue (Src.CalmRun, in Spec/Told); so only a flush served while updates wait can make a collector go back."
 },
 "C107": {
  "note": "C107_heard: the request becomes a flushReceived of the manager; C107_resync: with C104; C107_not_stuck. The Sends to the direct address are assumed to have returned and the flush receiver's channel to be empty at the end. Errors of the receiver other than the end of the context are excluded (the mock has none while the receiver is open)."
 },
 "C108": {
  "note": "C108_subscribed_partial: the receiver of the record listener is subscribed at a moment when the Send of the flush message is not called; C108_first_partial: the first message comes within the five seconds and on the record listener. C108_counterexample: a heartbeat comes first. C108_heard: in any case the manager receives the request (if it lives). Conditions of C104 (Stays, Lossless) are assumed, and that the Sends to the direct address have returned. What is missing for a full proof: the code does not wait for the subscription."
 },
 "C109": {
  "note": "C109_observed, C109_known: full, for every run. C109_discovered_partial adds the data, under the condition that nobody else announces the identity with other data (Sincere); C109_counterexample: a source restarted with another address keeps the old one (cf. C48). Conditions on the end of the run: the accepted Sends to the address of the beacons have returned, the channel is empty, Run is in Next, no message without subject came (C51)."
 },
 "C110": {
  "note": "The container started for a source is never stopped: while the tool runs it ends only by giving up reconnecting, so n discoveries and forgettings leave n running containers with no source known (C110_containers, C110_counterexample, C110_leak). If the Discovered handler is delayed until its watch has forgotten the source and closed the client, the listeners started after that never end (C110_late, C110_late_example). Holds: when the handler had returned before Close did, no listener is left and no handler is called (C110_listeners_partial); one watch per known source (C110_one_watch); NewWatchClient never fails (C110_watched); Close is called once (C110_no_panic); addresses (C110_listens) and registration (C110_registered). C110_can_release, C110_handler_goes_on: when the tool's context has ended, everything of a source can be released; C110_log_example exercises the steps of the log mode."
 },
 "C111": {
  "note": "False in two places. listenFlushes goes on after an error of Next: when a session fails and the context of the manager ends before Next checks it, the error is not that of the context, and a flush is queued and Accept called with a nil message (C111_counterexample_flushes, C111_counterexample_nil). Client.Listen drops a received message when accepting it fails (C111_counterexample_client). Proved: Discovery.Run handles every message once in order; the client those it accepts; listenFlushes until its context ends, and exactly what it does afterwards; the loops outlast every session failure; the bound on stray errors, which is reached (C111_stray_example). C111_can_end: from any state in which the context has ended, the container stands and the channel of errors has room, the loop can end with at most one more message received."
 },
 "C112": {
  "note": "Negated: what follows the first JSON value of a text is not read. Proved: the reader accepts exactly the texts of RFC 8259, the writer writes such a text, and reading gives the value back."
 },
 "C114": {
  "note": "negation C114_counterexample; the partial theorem needs a flush message after the new receiver is subscribed. On the mock router: a lost connection is a receiver the listener no longer uses. What changes after the new receiver was subscribed arrives without a flush: C128_relinked."
 },
 "C115": {
  "note": "Parsing is characterised exactly by a small grammar of command lines (C115_parse, C115_command, C115_exit, C115_misplaced). Partial: -ca, -key and -tls-verify are accepted and ignored when there is no -cert (C115_counterexample, C115_ignored), and -server beside -messaging-config (C115_server_ignored); C115_used_partial is what holds."
 },
 "C116": {
  "note": "Negated by C116_counterexample: without a CA the tls settings of the file are ignored, the client certificate among them. C116_empty: a file without settings is not refused. C116_reads is an equivalence for every text."
 },
 "C117": {
  "note": "False: a tag that is not in the conventional format up to its vflow pair (a blank after the colon, missing quotes, an unfinished pair before it) is passed over silently and the field is never sent or received (C117_counterexample, C117_ignored). Proved for tags in the conventional format (C117_conventional_partial), exactly which tags are used (C117_lookup), and that the tags of all built-in records are read as meant (C117_builtin). The meaning of backslashes in a quoted value is a parameter."
 },
 "C118": {
  "note": "Proved about a reader and writer of AMQP values written down from the behaviour of go-amqp v1.0.4, which is not in /repo. The encodings of the standard are a separate relation. Not modelled: frames, transfers, the types vanflow has no use for, Go strings that are not UTF-8 (the library refuses to write them, and link.Send then reports a session error).  A map with a key that is no key of a Go map is refused, as an element or as the body (C118_bad_key, C118_bad_body); nil maps are sent as empty ones (C118_nil_map). The Go types in error texts (%T) are not modelled."
 },
 "C119": {
  "note": "partial: the property is false. C119_costs_all: with operations that do not overlap on a link, a Send whose message is refused does not return before the container has been told to give up the session (C119_counterexample: a receiver on another link is lost, nothing else having failed). The partial theorems: errors of Accept are told nobody; messages made by the encoders (strings of UTF-8) are refused only if they are longer than the peer of the link allows (go-amqp's rules as remembered)."
 },
 "C12": {
  "note": "Negated: C12_counterexample (one image record, well formed and registered, costs the whole message). What holds: decoding is all-or-nothing, exactly characterised (C12_all_or_nothing_partial, C12_one_bad_rejects)."
 },
 "C121": {
  "note": "False for types that encode to slices or maps (C121_counterexample, C121_second_panics, C121_update_panics; exactly then: C121_merge_panics, C121_diff_panics); proved for comparable attributes."
 },
 "C122": {
  "note": "What is ignored is proved exactly; nothing is ever aborted (C122_counterexample), the loop goes on until the context ends (C122_goes_on)."
 },
 "C123": {
  "note": "False when operations on a link overlap: getReceiver and getSender hold r.mu while go-amqp attaches (container.go:358-384), so a second operation on the link, or Close, waits for the answer to the first whatever its own context says (C123_waits, C123_counterexample). Partial: links used by one operation at a time and closed when not in use. C123_refines carries the claims about Model/Container over to the model in which those calls take time."
 },
 "C124": {
  "note": "False: every call of Start counts generations from 1 (container.go:169) while links keep the generation they had, so after a restart a link that lost generation 1 is not given the new session of generation 1 (C124_counterexample_stuck), and a late error of the old generation 1 ends the new one (C124_counterexample_blamed); two calls at once read each other's errors (C124_counterexample_together). For any number of calls: what a waiting link gets is the newest session and not its old one (C124_fresh), and one call at a time leaves at most one session open (C124_one_session). Partial: Start called once."
 },
 "C125": {
  "note": "False: Listen calls wg.Add(1) before it takes the lock (client.go:88), so it can fall between the last Done and the end of Wait; then Listen or Close panics (C125_counterexample_listen, C125_counterexample_close). The listeners' Done never panics and no wake-up is lost however they overlap (C125_done, C125_wakes). Partial: calls that do not overlap.  C125_panics: the panics among the events of a run are what it crashed of."
 },
 "C126": {
  "note": "Negated: a closed receiver stays in multicast.receivers, so a Send that finds only closed receivers returns nil and the message is lost (C126_counterexample; C126_lost for every such state; C126_kept: the lists only grow).  Partial: every open receiver that subscribed before the message was sent has it when Send returns (C126_given_partial); some receiver had subscribed (C126_someone)."
 },
 "C127": {
  "note": "Negated: flows of all sources share one map by ID, so of two flows with one ID only one is listed (C127_same_id) or a flow is listed with a counterflow it does not name (C127_mixed); a flow without its counterflow is listed with an empty entry (C127_half).  Partial: with unique IDs, exactly once, in every order of the maps (C127_listed_partial, C127_complete_partial)."
 },
 "C129": {
  "note": "Negated by C129_counterexample: an attribute taken away stays with a collector that was there and is unknown to one that joins later, in spite of a flush. C129_flushed_partial: every attribute of the last version. C129_start and C129_changed are full.  Where two collectors differ, the attribute is one the last version lacks and an earlier one had (C129_differ); if the source takes nothing away they agree about everything (C129_kept; its instance is in Props/CollectorsKept)."
 },
 "C15": {
  "note": "False of the code: delete and re-add restarts versions, so a stale ETag can match (C15_counterexample). Partial: exact while the entry is not deleted or re-created."
 },
 "C22": {
  "note": "False of the code: a record that encodes but does not decode, or a failing accumulate, still emits an event (C22_counterexample). Partial: holds for well-formed records."
 },
 "C23": {
  "note": "False of the code: a failing Accumulate calls OnAdd with a zero entry (C23_counterexample). Partial: exact events for every other outcome."
 },
 "C24": {
  "note": "False of the code: Replace emits no events (C24_counterexample). Partial: change log is complete for histories without Replace and without failing Accumulate."
 },
 "C26": {
  "note": "False of the code: negative offsets panic (C26_counterexample). Partial: exact window for non-negative offsets; malformed tokens are errors."
 },
 "C28": {
  "note": "False of the code: a deletion between pages shifts the window (C28_counterexample). Partial: holds when no smaller matching key disappears during the walk."
 },
 "C29": {
  "note": "False of the code: offsets are truncated to int32 (C29_counterexample). Partial: exact below 2^31."
 },
 "C31": {
  "note": "False of the code: source strings can collide (C31_counterexample). Partial: distinct for sources without a dot in their type/name parts."
 },
 "C32": {
  "note": "False of the code: a key function that reads metadata files accumulated entries under another key (C32_counterexample, the fixture store). Partial: exact for keys of the record alone."
 },
 "C33": {
  "note": "False of the code: handlers run outside the lock (C33_counterexample). Partial: linearizability, per-goroutine order, and exact order for keys with one writer."
 },
 "C34": {
  "note": "False of the code: the annotations map is shared (C34_counterexample). Partial: exact indexes for callers that do not write to maps of stored entries."
 },
 "C35": {
  "note": "False of the code: a cleared attribute cannot be conveyed (C35_counterexample). C35_diff_exact is exact; partial: applying gives the current attributes over the previous ones."
 },
 "C36": {
  "note": "For every run of a source (versions stored before they are published, published in order, anything else for other records), every batching, flush and send schedule: once drained and nothing lost, the collector's entry has, attribute by attribute, the value of the last version that has one, hence exactly the last version when nothing is ever cleared. Missing: cleared attributes stay at the collector (C36_counterexample)."
 },
 "C37": {
  "note": "Every interleaving of publishers, serve, sender, flushes and cancellation; queue capacities and blocking included."
 },
 "C38": {
  "note": "Flush during which the manager's stores are not written; any other activity may interleave. Stores below 2^31 entries."
 },
 "C39": {
  "note": "Safety (no request lost), bound on the steps of a manager left alone, and absence of stuck states."
 },
 "C40": {
  "note": "False of the code: one unencodable record drops the whole message (C40_counterexample). Partial: a message is dropped iff it has such a record; holds in full without batching."
 },
 "C41": {
  "note": "Announce-first and content proved for every schedule. Stopping is false of the code: cancelled before the first beacon is delivered, the goroutine spins forever (C41_counterexample). Partial: stops once the first beacon has been delivered."
 },
 "C42": {
  "note": "False of the code: sendWithTimeout passes ctx instead of requestCtx, so no send ever times out (C42_counterexample, for every schedule). Partial: the timeout error is returned only after the timeout."
 },
 "C43": {
  "note": "Order, exactly-once and registration proved for every run. False of the code only where decoding panics (C43_counterexample); messages whose Accept fails are skipped."
 },
 "C44": {
  "note": "False of the code: Close deadlocks with a listener that needs the lock (C44_counterexample_stuck) and a second Close panics (C44_counterexample_twice). Partial: returns when listeners are settled and no traffic comes; one Close never panics; listeners are finished when it returns. C44_can_return: a first Close that does not have the lock yet can always return."
 },
 "C45": {
  "note": "FlushOnFirstMessage as a transition system with any number of handler calls and any sender."
 },
 "C46": {
  "note": "Proved for every interleaving of any number of goroutines, on the channel sends in order."
 },
 "C47": {
  "note": "Partial: proved when no caller writes a time ahead of the clock; C47_counterexample: Add with a future LastSeen, then a beacon."
 },
 "C48": {
  "note": "Negated by C48_counterexample: only LastSeen of a known source is updated. Proved for the first beacon of a source."
 },
 "C49": {
  "note": "Negated by C49_counterexample_handler (handler calling back, 34 sources) and C49_counterexample_stopped (Add after Run returned). Proved for handlers that do not call back, and for channels with room."
 },
 "C50": {
  "note": "Negated by C50_counterexample (two channels). Proved: order within a kind, counts, and order when the channels never hold both kinds."
 },
 "C51": {
  "note": "Negated by C51_counterexample (message without properties or subject). Exactly those messages panic."
 },
 "C52": {
  "note": "Partial: C52_zero and C52_due hold for every schedule; C52_active_partial needs one listener and a start not delayed beyond the GracePeriod; C52_listeners_partial allows any number of listeners, at the cost of the time between reading and storing the clock in a handler. Negated by C52_counterexample_race (two listeners), C52_counterexample_late and C52_counterexample_grace (activity ends the GracePeriod)."
 },
 "C53": {
  "note": "Proved: the drain never blocks, outside its select the goroutine can always go on, after activity stops the timer is set at most once more and its next expiry leads to forgetting."
 },
 "C54": {
  "note": "Proved for operations that do not overlap on a link; negated by C54_counterexample_order and C54_counterexample_reuse (two operations at a time)."
 },
 "C55": {
  "note": "Proved: the error handled belongs to the current generation and errors of context or Close are not reported; negated by C55_counterexample_late (late error of an old session) and C55_counterexample_close (Close during Next)."
 },
 "C56": {
  "note": "Negated by C56_counterexample: Next on a closed link never returns while its context lives. Proved for Send, Accept and ended contexts."
 },
 "C57": {
  "note": "Negated by C57_counterexample: positive credits are replaced by 0, only non-positive ones are passed on."
 },
 "C58": {
  "note": "Negated by C58_counterexample (33 failing links after the container ended). Proved when the channel has room and no handler holds the lock."
 },
 "C59": {
  "note": "Negated by C59_counterexample_close and C59_counterexample_overlap (method call on a nil session). Proved for exclusive use."
 },
 "C60": {
  "note": "Negated by C60_counterexample_connection (NewSession fails), _sender (never closed) and _late (receiver attached after Close). Proved for sessions that were replaced and receivers held. C60_can_end: when the context has ended, Start can end from wherever it is, unless a handler has called the container (C59)."
 },
 "C61": {
  "note": "Proved with backoff.RetryNotify v4.2.1 modelled from its documentation; durations not modelled."
 },
 "C62": {
  "note": "Proved for any number of senders, receivers and calls; send order is the order in which Sends take the lock of the multicast."
 },
 "C63": {
  "note": "JSON decoding of a record is a parameter; holds for every decoder."
 },
 "C64": {
  "note": "Negated by C64_counterexample; C64_host_partial characterises exactly the hosts for which it holds (both directions)."
 },
 "C65": {
  "note": "Negated: C65_counterexample, C65_dangling_crashes (every dangling counterflow crashes), C65_negative_flows. Partial: all references resolve and flows >= 0. A number of flows too large for a slice (above 2^45) panics as well (C65_too_many_flows)."
 },
 "C66": {
  "note": "Source stores before publishing and chains versions (Src model); attributes the last version does not transmit may survive (C36_counterexample)."
 },
 "C67": {
  "note": "Go tickers modelled as in the runtime (missed ticks skipped); start of tickers after the first beacon."
 },
 "C68": {
  "note": "Negated by C68_counterexample. Proved for handlers that do not call the container."
 },
 "C69": {
  "note": "Negated (C69_counterexample, C69_hangs). What holds: C69_context_partial, the call returns its context's error once its own context has ended."
 },
 "C70": {
  "note": "Negated by C70_counterexample and C70_subscribe_blocked. Proved when the receivers to serve have room or are closed (C70_room_partial); C70_waits_partial lists everything a Send can wait for."
 },
 "C71": {
  "note": "JSON decoding of a record is a parameter; holds for every decoder."
 },
 "C72": {
  "note": "Negated by C72_counterexample (two sources with one name). Partial: distinct names."
 },
 "C73": {
  "note": "Timing (tickers) is left out: the sequence of updates is modelled."
 },
 "C74": {
  "note": "C74_no_pod shows a panic that still cleans up. The answer of the delete request is not modelled."
 },
 "C75": {
  "note": "Negated by C75_error_captured (status not checked) and C75_failed_truncates. Partial: on success the file is the body of the answer."
 },
 "C76": {
  "note": "Also proved: -ca, -key and -tls-verify have no effect without -cert (C76_flags_ignored), and a connect.json without `verify` switches the check off (C76_default_insecure)."
 },
 "C77": {
  "note": "False of the code: a -cert naming no file gives SASL EXTERNAL without a certificate (C77_counterexample). Partial: EXTERNAL iff there is a TLS configuration; C77_certificate says when it has a certificate."
 },
 "C78": {
  "note": "False of the code: one record with a time after the year 9999 empties the answer (C78_counterexample). Partial: exact when all stored times are in the years 0-9999, and empty otherwise."
 },
 "C79": {
  "note": "False of the code: an idle session longer than the limit counts as an outage (C79_idle_ends). Partial: the time since the last reported success exceeds the limit; C79_unlimited: never without a limit."
 },
 "C80": {
  "note": "False of the code: all containers of a factory share one backoff (C80_shared_never_ends). Partial: a container alone with its backoff."
 },
 "C81": {
  "note": "/sources/ is exact (C81_sources). Records of forgotten sources stay (C81_counterexample). Partial: every record served is of a source once discovered."
 },
 "C82": {
  "note": "Negated: C82_counterexample (a router and a site under one ID become one entry that says router and holds a site; uploaded it is a router without the captured location). What holds: with one kind per ID the answer, unless empty because of a time that cannot be written (C78), is accepted and each source lists exactly its captured entries of configured kinds, unchanged. Records with a time outside the years 0 to 9999 cannot be written at all (C82_record_unwritable)."
 },
 "C83": {
  "note": "Negated: C83_counterexample (one failed send and the goroutine is over; C83_gives_up: nothing is ever sent again). What holds: at least one and at most two requests are handed over, to the right address; with a sender that fails only by its context the request is accepted unless the tool shuts down; no deadlock."
 },
 "C84": {
  "note": "Negated: C84_counterexample (a record that ends in the year 10000 costs its whole message), C84_lost_at_end. What holds: per client in order, one value per message, written in channel order, each once, without exactly those with such a time."
 },
 "C86": {
  "note": "Negated: C86_counterexample; C86_lost: a message with a record of one of five registered kinds is never delivered. What holds: all other messages of well-formed records are delivered whole."
 },
 "C87": {
  "note": "Requests that find the queue full are dropped by design (C39 covers them); the counting is for runs without such drops."
 },
 "C88": {
  "note": "Negated: C88_neg_containers: the connections of replaced managers stay open until the tool ends. What holds: managers, status and /flows are those of the last upload (C88_settled_partial, C88_one_upload, C88_status, C88_answer)."
 },
 "C89": {
  "note": "Negated: C89_neg_slow_client (a client of /flows that does not send its body keeps every later request from being answered, because the lock is held), C89_neg_shutdown. What holds: C89_story, C89_rest, C89_answered_partial (no such client, no shutdown)."
 },
 "C90": {
  "note": "Negated: C90_neg_replaced, C90_stuck: a replay whose manager is replaced waits for ever in PublishUpdate. What holds: C90_ends_partial (no manager is replaced), C90_count, C90_once."
 },
 "C91": {
  "note": "The goroutine of the port forward assigns the variable err of Run. Counterexamples: a complete capture reported as failure, a broken one reported as success and a panic (the last two need ForwardPorts to return nil while Run goes on, which depends on the client-go version). Proved: what each outcome implies in every interleaving, and that a run whose port forward stays up is the function of C74 and C75."
 },
 "C92": {
  "note": "Counterexamples: a server that cannot listen is only logged; a container that gives up before its handler is registered tells nobody; cancel is reassigned by the shutdown, so a late container error cuts requests off. Proved: why the commands return, that they do after an interrupt or a container error told to the handler, and the second for requests otherwise."
 },
 "C93": {
  "note": "Partial: the race-free theorem needs that no two goroutines use one link (except to close it) or one BackOff, that registries are filled before use, and that the local variables cancel, src and err are not shared; each is shown to be needed by a race. C93_only_these is unconditional: no race on any other variable. The model abstracts from values, so a race found in it is on a path of the code but whether the values allow it is argued in comments."
 },
 "C95": {
  "note": "Not true of unlisted paths below a listed one: the mux matches by prefix, so /flow/v1/SiteRecord/no-such-site is answered with 200 and all sites (C95_unlisted_answered). Proved for all other paths (C95_other_partial); everything else in the claim is proved for all paths."
 },
 "C96": {
  "note": "partial: assumes that sends return in time. sendWithTimeout passes on its own context, not the one with the deadline (C42), so they need not: C96_forgotten is a run with the default settings in which a source that goes on is forgotten. C96_live_partial is for one listener, C96_listeners_partial for any number: since activity recorded can be older than activity recorded before (C52_counterexample_race), the delivery time counts twice there."
 },
 "C98": {
  "note": "partial: holds for scalars of predeclared types and types with both methods, the decoder on the pointer. Accepted but broken: defined scalar types without methods (never decoded, C98_named_never_arrives), an encoder without decoder (C98_encoder_only), decoders on the value (C98_value_receiver), interfaces (panic, C98_iface_panics). No built-in record uses such a field."
 }
}
