{
 "claims": [
  {
   "property": "C01",
   "status": "proved",
   "theorems": [
    "Verif.Props.C01_canon_unique",
    "Verif.Props.C01_roundtrip",
    "Verif.Props.C01_pointer_argument",
    "Verif.Props.C01_code_zero_counterexample",
    "Verif.Props.C01_nil_codec_counterexample"
   ],
   "note": "Any struct type, any lawful codecs. Excludes attribute code 0 (as stated); the two hypotheses are shown necessary by counterexample theorems."
  },
  {
   "property": "C02",
   "status": "proved",
   "theorems": [
    "Verif.Props.C02_decode_encode"
   ],
   "note": ""
  },
  {
   "property": "C03",
   "status": "proved",
   "theorems": [
    "Verif.Props.C03_decode_requires",
    "Verif.Props.C03_encode_requires",
    "Verif.Props.C03_encoded_has_required",
    "Verif.Props.C03_encode_accepts",
    "Verif.Props.C03_empty_identity_asymmetry"
   ],
   "note": ""
  },
  {
   "property": "C04",
   "status": "proved",
   "theorems": [
    "Verif.Props.C04_unknown_ignored"
   ],
   "note": ""
  },
  {
   "property": "C05",
   "status": "partial",
   "theorems": [
    "Verif.Props.C05_counterexample",
    "Verif.Props.C05_panics_only_on_null_partial",
    "Verif.Props.C05_no_null_no_panic_partial"
   ],
   "note": "False of the code: a null attribute panics (C05_counterexample). Partial: the only cause of a panic is a null under a code of the record type."
  },
  {
   "property": "C06",
   "status": "proved",
   "theorems": [
    "Verif.Props.C06_codes_unique",
    "Verif.Props.C06_types_unique",
    "Verif.Props.C06_encode_code_decodes",
    "Verif.Props.C06_register_adds",
    "Verif.Props.C06_register_refuses",
    "Verif.Props.C06_encode_stable",
    "Verif.Props.C06_decode_stable",
    "Verif.Props.C06_encode_refuses",
    "Verif.Props.C06_builtin_ok"
   ],
   "note": ""
  },
  {
   "property": "C07",
   "status": "partial",
   "theorems": [
    "Verif.Props.C07_counterexample",
    "Verif.Props.C07_nonzero_transmitted_partial"
   ],
   "note": "False of the code: pointers to zero values are not sent (C07_counterexample). Partial: transmitted iff non-zero."
  },
  {
   "property": "C08",
   "status": "proved",
   "theorems": [
    "Verif.Props.C08_encode",
    "Verif.Props.C08_roundtrip",
    "Verif.Props.C08_order",
    "Verif.Props.C08_zero",
    "Verif.Props.C08_before_epoch",
    "Verif.Props.C08_decode_accepts_iff",
    "Verif.Props.C08_far_future_wraps"
   ],
   "note": ""
  },
  {
   "property": "C09",
   "status": "proved",
   "theorems": [
    "Verif.Props.C09_beacon_roundtrip",
    "Verif.Props.C09_heartbeat_roundtrip",
    "Verif.Props.C09_flush_roundtrip"
   ],
   "note": ""
  },
  {
   "property": "C10",
   "status": "proved",
   "theorems": [
    "Verif.Props.C10_record_roundtrip"
   ],
   "note": ""
  },
  {
   "property": "C11",
   "status": "proved",
   "theorems": [
    "Verif.Props.C11_rejects",
    "Verif.Props.C11_kind_by_subject",
    "Verif.Props.C11_beacon_total",
    "Verif.Props.C11_heartbeat_total",
    "Verif.Props.C11_flush_total"
   ],
   "note": ""
  },
  {
   "property": "C12",
   "status": "partial",
   "theorems": [
    "Verif.Props.C12_counterexample",
    "Verif.Props.C12_all_or_nothing_partial",
    "Verif.Props.C12_one_bad_rejects"
   ],
   "note": "Negated: C12_counterexample (one image record, well formed and registered, costs the whole message). What holds: decoding is all-or-nothing, exactly characterised (C12_all_or_nothing_partial, C12_one_bad_rejects)."
  },
  {
   "property": "C13",
   "status": "proved",
   "theorems": [
    "Verif.Props.C13_get_latest_write",
    "Verif.Props.C13_bad_key",
    "Verif.Props.C13_reads_pure",
    "Verif.Props.C13_update_stores"
   ],
   "note": ""
  },
  {
   "property": "C14",
   "status": "proved",
   "theorems": [
    "Verif.Props.C14_add_creates",
    "Verif.Props.C14_add_never_overwrites"
   ],
   "note": ""
  },
  {
   "property": "C15",
   "status": "partial",
   "theorems": [
    "Verif.Props.C15_counterexample",
    "Verif.Props.C15_stale_etag_partial",
    "Verif.Props.C15_malformed_etag"
   ],
   "note": "False of the code: delete and re-add restarts versions, so a stale ETag can match (C15_counterexample). Partial: exact while the entry is not deleted or re-created."
  },
  {
   "property": "C16",
   "status": "proved",
   "theorems": [
    "Verif.Props.C16_etag_roundtrip",
    "Verif.Props.C16_continue_roundtrip",
    "Verif.Props.C16_etag_injective",
    "Verif.Props.C16_malformed_refused"
   ],
   "note": ""
  },
  {
   "property": "C17",
   "status": "proved",
   "theorems": [
    "Verif.Props.C17_index_exact",
    "Verif.Props.C17_unknown_index",
    "Verif.Props.C17_reading_calls"
   ],
   "note": ""
  },
  {
   "property": "C18",
   "status": "proved",
   "theorems": [
    "Verif.Props.C18_index_values"
   ],
   "note": ""
  },
  {
   "property": "C19",
   "status": "proved",
   "theorems": [
    "Verif.Props.C19_delete_removes"
   ],
   "note": ""
  },
  {
   "property": "C20",
   "status": "proved",
   "theorems": [
    "Verif.Props.C20_replace_exact"
   ],
   "note": ""
  },
  {
   "property": "C21",
   "status": "proved",
   "theorems": [
    "Verif.Props.C21_last_writer_wins",
    "Verif.Props.C21_never_unset"
   ],
   "note": ""
  },
  {
   "property": "C22",
   "status": "partial",
   "theorems": [
    "Verif.Props.C22_nothing_new",
    "Verif.Props.C22_uncaught",
    "Verif.Props.C22_counterexample",
    "Verif.Props.C22_twice_partial"
   ],
   "note": "False of the code: a record that encodes but does not decode, or a failing accumulate, still emits an event (C22_counterexample). Partial: holds for well-formed records."
  },
  {
   "property": "C23",
   "status": "partial",
   "theorems": [
    "Verif.Props.C23_counterexample",
    "Verif.Props.C23_only_set",
    "Verif.Props.C23_no_handlers",
    "Verif.Props.C23_events_partial"
   ],
   "note": "False of the code: a failing Accumulate calls OnAdd with a zero entry (C23_counterexample). Partial: exact events for every other outcome."
  },
  {
   "property": "C24",
   "status": "partial",
   "theorems": [
    "Verif.Props.C24_counterexample",
    "Verif.Props.C24_change_log_partial"
   ],
   "note": "False of the code: Replace emits no events (C24_counterexample). Partial: change log is complete for histories without Replace and without failing Accumulate."
  },
  {
   "property": "C25",
   "status": "proved",
   "theorems": [
    "Verif.Props.C25_accumulate_no_panic",
    "Verif.Props.C25_kinds_merge"
   ],
   "note": ""
  },
  {
   "property": "C26",
   "status": "partial",
   "theorems": [
    "Verif.Props.C26_counterexample",
    "Verif.Props.C26_window_partial",
    "Verif.Props.C26_bad_token"
   ],
   "note": "False of the code: negative offsets panic (C26_counterexample). Partial: exact window for non-negative offsets; malformed tokens are errors."
  },
  {
   "property": "C27",
   "status": "proved",
   "theorems": [
    "Verif.Props.C27_paging"
   ],
   "note": ""
  },
  {
   "property": "C28",
   "status": "partial",
   "theorems": [
    "Verif.Props.C28_counterexample",
    "Verif.Props.C28_paging_partial"
   ],
   "note": "False of the code: a deletion between pages shifts the window (C28_counterexample). Partial: holds when no smaller matching key disappears during the walk."
  },
  {
   "property": "C29",
   "status": "partial",
   "theorems": [
    "Verif.Props.C29_token_partial",
    "Verif.Props.C29_counterexample"
   ],
   "note": "False of the code: offsets are truncated to int32 (C29_counterexample). Partial: exact below 2^31."
  },
  {
   "property": "C30",
   "status": "proved",
   "theorems": [
    "Verif.Props.C30_routing",
    "Verif.Props.C30_routing_builtin"
   ],
   "note": ""
  },
  {
   "property": "C31",
   "status": "partial",
   "theorems": [
    "Verif.Props.C31_counterexample",
    "Verif.Props.C31_source_index_partial"
   ],
   "note": "False of the code: source strings can collide (C31_counterexample). Partial: distinct for sources without a dot in their type/name parts."
  },
  {
   "property": "C32",
   "status": "partial",
   "theorems": [
    "Verif.Props.C32_counterexample",
    "Verif.Props.C32_lookup_partial"
   ],
   "note": "False of the code: a key function that reads metadata files accumulated entries under another key (C32_counterexample, the fixture store). Partial: exact for keys of the record alone."
  },
  {
   "property": "C33",
   "status": "partial",
   "theorems": [
    "Verif.Props.C33_counterexample",
    "Verif.Props.C33_linearizable_partial",
    "Verif.Props.C33_single_writer_partial"
   ],
   "note": "False of the code: handlers run outside the lock (C33_counterexample). Partial: linearizability, per-goroutine order, and exact order for keys with one writer."
  },
  {
   "property": "C34",
   "status": "partial",
   "theorems": [
    "Verif.Props.C34_counterexample",
    "Verif.Props.C34_disciplined_partial"
   ],
   "note": "False of the code: the annotations map is shared (C34_counterexample). Partial: exact indexes for callers that do not write to maps of stored entries."
  },
  {
   "property": "C35",
   "status": "partial",
   "theorems": [
    "Verif.Props.C35_counterexample",
    "Verif.Props.C35_diff_exact",
    "Verif.Props.C35_unencodable",
    "Verif.Props.C35_apply_partial"
   ],
   "note": "False of the code: a cleared attribute cannot be conveyed (C35_counterexample). C35_diff_exact is exact; partial: applying gives the current attributes over the previous ones."
  },
  {
   "property": "C36",
   "status": "partial",
   "theorems": [
    "Verif.Props.C36_converges_partial",
    "Verif.Props.C36_counterexample"
   ],
   "note": "For every run of a source (versions stored before they are published, published in order, anything else for other records), every batching, flush and send schedule: once drained and nothing lost, the collector's entry has, attribute by attribute, the value of the last version that has one, hence exactly the last version when nothing is ever cleared. Missing: cleared attributes stay at the collector (C36_counterexample)."
  },
  {
   "property": "C37",
   "status": "proved",
   "theorems": [
    "Verif.Props.C37_updates_in_order"
   ],
   "note": "Every interleaving of publishers, serve, sender, flushes and cancellation; queue capacities and blocking included."
  },
  {
   "property": "C38",
   "status": "proved",
   "theorems": [
    "Verif.Props.C38_flush_complete"
   ],
   "note": "Flush during which the manager's stores are not written; any other activity may interleave. Stores below 2^31 entries."
  },
  {
   "property": "C39",
   "status": "proved",
   "theorems": [
    "Verif.Props.C39_flush_not_lost",
    "Verif.Props.C39_bounded",
    "Verif.Props.C39_quiescent",
    "Verif.Props.C39_flush_served"
   ],
   "note": "Safety (no request lost), bound on the steps of a manager left alone, and absence of stuck states."
  },
  {
   "property": "C40",
   "status": "partial",
   "theorems": [
    "Verif.Props.C40_counterexample",
    "Verif.Props.C40_dropped_iff_partial",
    "Verif.Props.C40_unbatched"
   ],
   "note": "False of the code: one unencodable record drops the whole message (C40_counterexample). Partial: a message is dropped iff it has such a record; holds in full without batching."
  },
  {
   "property": "C41",
   "status": "partial",
   "theorems": [
    "Verif.Props.C41_due",
    "Verif.Props.C41_announce_first",
    "Verif.Props.C41_content",
    "Verif.Props.C41_stops_partial",
    "Verif.Props.C41_counterexample"
   ],
   "note": "Announce-first and content proved for every schedule. Stopping is false of the code: cancelled before the first beacon is delivered, the goroutine spins forever (C41_counterexample). Partial: stops once the first beacon has been delivered."
  },
  {
   "property": "C42",
   "status": "partial",
   "theorems": [
    "Verif.Props.C42_expires",
    "Verif.Props.C42_counterexample",
    "Verif.Props.C42_timeout_partial"
   ],
   "note": "False of the code: sendWithTimeout passes ctx instead of requestCtx, so no send ever times out (C42_counterexample, for every schedule). Partial: the timeout error is returned only after the timeout."
  },
  {
   "property": "C43",
   "status": "partial",
   "theorems": [
    "Verif.Props.C43_handlers",
    "Verif.Props.C43_all_handlers",
    "Verif.Props.C43_keeps_listening_partial",
    "Verif.Props.C43_failures",
    "Verif.Props.C43_counterexample",
    "Verif.Props.C43_skips"
   ],
   "note": "Order, exactly-once and registration proved for every run. False of the code only where decoding panics (C43_counterexample); messages whose Accept fails are skipped."
  },
  {
   "property": "C44",
   "status": "partial",
   "theorems": [
    "Verif.Props.C44_counterexample_stuck",
    "Verif.Props.C44_returns_partial",
    "Verif.Props.C44_listeners_stopped",
    "Verif.Props.C44_cancel",
    "Verif.Props.C44_cancels",
    "Verif.Props.C44_once_partial",
    "Verif.Props.C44_counterexample_twice",
    "Verif.Props.C44_can_return"
   ],
   "note": "False of the code: Close deadlocks with a listener that needs the lock (C44_counterexample_stuck) and a second Close panics (C44_counterexample_twice). Partial: returns when listeners are settled and no traffic comes; one Close never panics; listeners are finished when it returns. C44_can_return: a first Close that does not have the lock yet can always return."
  },
  {
   "property": "C45",
   "status": "proved",
   "theorems": [
    "Verif.Props.C45_flush_once",
    "Verif.Props.C45_prompt",
    "Verif.Props.C45_gives_up"
   ],
   "note": "FlushOnFirstMessage as a transition system with any number of handler calls and any sender."
  },
  {
   "property": "C46",
   "status": "proved",
   "theorems": [
    "Verif.Props.C46_alternate",
    "Verif.Props.C46_quiet",
    "Verif.Props.C46_list"
   ],
   "note": "Proved for every interleaving of any number of goroutines, on the channel sends in order."
  },
  {
   "property": "C47",
   "status": "partial",
   "theorems": [
    "Verif.Props.C47_monotone_partial",
    "Verif.Props.C47_counterexample"
   ],
   "note": "Partial: proved when no caller writes a time ahead of the clock; C47_counterexample: Add with a future LastSeen, then a beacon."
  },
  {
   "property": "C48",
   "status": "partial",
   "theorems": [
    "Verif.Props.C48_seen_partial",
    "Verif.Props.C48_first_partial",
    "Verif.Props.C48_counterexample"
   ],
   "note": "Negated by C48_counterexample: only LastSeen of a known source is updated. Proved for the first beacon of a source."
  },
  {
   "property": "C49",
   "status": "partial",
   "theorems": [
    "Verif.Props.C49_deadlock_forever",
    "Verif.Props.C49_counterexample_handler",
    "Verif.Props.C49_counterexample_stopped",
    "Verif.Props.C49_progress_partial",
    "Verif.Props.C49_room_partial"
   ],
   "note": "Negated by C49_counterexample_handler (handler calling back, 34 sources) and C49_counterexample_stopped (Add after Run returned). Proved for handlers that do not call back, and for channels with room."
  },
  {
   "property": "C50",
   "status": "partial",
   "theorems": [
    "Verif.Props.C50_counterexample",
    "Verif.Props.C50_fifo_partial",
    "Verif.Props.C50_count_partial",
    "Verif.Props.C50_order_partial"
   ],
   "note": "Negated by C50_counterexample (two channels). Proved: order within a kind, counts, and order when the channels never hold both kinds."
  },
  {
   "property": "C51",
   "status": "partial",
   "theorems": [
    "Verif.Props.C51_counterexample",
    "Verif.Props.C51_subject_partial",
    "Verif.Props.C51_panics_partial"
   ],
   "note": "Negated by C51_counterexample (message without properties or subject). Exactly those messages panic."
  },
  {
   "property": "C52",
   "status": "partial",
   "theorems": [
    "Verif.Props.C52_zero",
    "Verif.Props.C52_due",
    "Verif.Props.C52_active_partial",
    "Verif.Props.C52_listeners_partial",
    "Verif.Props.C52_decided",
    "Verif.Props.C52_counterexample_race",
    "Verif.Props.C52_counterexample_late",
    "Verif.Props.C52_counterexample_grace"
   ],
   "note": "Partial: C52_zero and C52_due hold for every schedule; C52_active_partial needs one listener and a start not delayed beyond the GracePeriod; C52_listeners_partial allows any number of listeners, at the cost of the time between reading and storing the clock in a handler. Negated by C52_counterexample_race (two listeners), C52_counterexample_late and C52_counterexample_grace (activity ends the GracePeriod)."
  },
  {
   "property": "C53",
   "status": "proved",
   "theorems": [
    "Verif.Props.C53_can_end",
    "Verif.Props.C53_drain",
    "Verif.Props.C53_goes_on",
    "Verif.Props.C53_one_more",
    "Verif.Props.C53_next_expiry",
    "Verif.Props.C53_can_forget",
    "Verif.Props.C53_stops",
    "Verif.Props.C53_returns_when_told"
   ],
   "note": "Proved: the drain never blocks, outside its select the goroutine can always go on, after activity stops the timer is set at most once more and its next expiry leads to forgetting."
  },
  {
   "property": "C54",
   "status": "partial",
   "theorems": [
    "Verif.Props.C54_order_partial",
    "Verif.Props.C54_later_partial",
    "Verif.Props.C54_counterexample_order",
    "Verif.Props.C54_counterexample_reuse",
    "Verif.Props.C54_instance"
   ],
   "note": "Proved for operations that do not overlap on a link; negated by C54_counterexample_order and C54_counterexample_reuse (two operations at a time)."
  },
  {
   "property": "C55",
   "status": "partial",
   "theorems": [
    "Verif.Props.C55_current",
    "Verif.Props.C55_cause_partial",
    "Verif.Props.C55_closed_partial",
    "Verif.Props.C55_benign",
    "Verif.Props.C55_counterexample_late",
    "Verif.Props.C55_counterexample_close",
    "Verif.Props.C55_old_error"
   ],
   "note": "Proved: the error handled belongs to the current generation and errors of context or Close are not reported; negated by C55_counterexample_late (late error of an old session) and C55_counterexample_close (Close during Next)."
  },
  {
   "property": "C56",
   "status": "partial",
   "theorems": [
    "Verif.Props.C56_next_never",
    "Verif.Props.C56_next_loops",
    "Verif.Props.C56_counterexample",
    "Verif.Props.C56_prompt_partial",
    "Verif.Props.C56_only_closed",
    "Verif.Props.C56_instance"
   ],
   "note": "Negated by C56_counterexample: Next on a closed link never returns while its context lives. Proved for Send, Accept and ended contexts."
  },
  {
   "property": "C57",
   "status": "partial",
   "theorems": [
    "Verif.Props.C57_ignored",
    "Verif.Props.C57_counterexample",
    "Verif.Props.C57_nonpositive_partial"
   ],
   "note": "Negated by C57_counterexample: positive credits are replaced by 0, only non-positive ones are passed on."
  },
  {
   "property": "C58",
   "status": "partial",
   "theorems": [
    "Verif.Props.C58_decreases",
    "Verif.Props.C58_enabled_partial",
    "Verif.Props.C58_blocked_forever",
    "Verif.Props.C58_counterexample"
   ],
   "note": "Negated by C58_counterexample (33 failing links after the container ended). Proved when the channel has room and no handler holds the lock."
  },
  {
   "property": "C59",
   "status": "partial",
   "theorems": [
    "Verif.Props.C59_exclusive_partial",
    "Verif.Props.C59_counterexample_close",
    "Verif.Props.C59_counterexample_overlap"
   ],
   "note": "Negated by C59_counterexample_close and C59_counterexample_overlap (method call on a nil session). Proved for exclusive use."
  },
  {
   "property": "C60",
   "status": "partial",
   "theorems": [
    "Verif.Props.C60_connections_partial",
    "Verif.Props.C60_replaced",
    "Verif.Props.C60_receiver_partial",
    "Verif.Props.C60_counterexample_connection",
    "Verif.Props.C60_counterexample_sender",
    "Verif.Props.C60_counterexample_late",
    "Verif.Props.C60_one_endpoint_partial",
    "Verif.Props.C60_counterexample_two",
    "Verif.Props.C60_can_end"
   ],
   "note": "Negated by C60_counterexample_connection (NewSession fails), _sender (never closed) and _late (receiver attached after Close). Proved for sessions that were replaced and receivers held. C60_can_end: when the context has ended, Start can end from wherever it is, unless a handler has called the container (C59)."
  },
  {
   "property": "C61",
   "status": "proved",
   "theorems": [
    "Verif.Props.C61_retryable",
    "Verif.Props.C61_final",
    "Verif.Props.C61_each",
    "Verif.Props.C61_gives_up",
    "Verif.Props.C61_cancelled",
    "Verif.Props.C61_interrupted",
    "Verif.Props.C61_instance"
   ],
   "note": "Proved with backoff.RetryNotify v4.2.1 modelled from its documentation; durations not modelled."
  },
  {
   "property": "C62",
   "status": "proved",
   "theorems": [
    "Verif.Props.C62_close_sender",
    "Verif.Props.C62_order",
    "Verif.Props.C62_complete",
    "Verif.Props.C62_sent",
    "Verif.Props.C62_quiet",
    "Verif.Props.C62_closed_sender",
    "Verif.Props.C62_closed_receiver",
    "Verif.Props.C62_instance"
   ],
   "note": "Proved for any number of senders, receivers and calls; send order is the order in which Sends take the lock of the multicast."
  },
  {
   "property": "C63",
   "status": "proved",
   "theorems": [
    "Verif.Props.C63_group",
    "Verif.Props.C63_lossless"
   ],
   "note": "JSON decoding of a record is a parameter; holds for every decoder."
  },
  {
   "property": "C64",
   "status": "partial",
   "theorems": [
    "Verif.Props.C64_counterexample",
    "Verif.Props.C64_host_partial"
   ],
   "note": "Negated by C64_counterexample; C64_host_partial characterises exactly the hosts for which it holds (both directions)."
  },
  {
   "property": "C65",
   "status": "partial",
   "theorems": [
    "Verif.Props.C65_replay_partial",
    "Verif.Props.C65_dangling_crashes",
    "Verif.Props.C65_counterexample",
    "Verif.Props.C65_negative_flows",
    "Verif.Props.C65_makeslice",
    "Verif.Props.C65_too_many_flows"
   ],
   "note": "Negated: C65_counterexample, C65_dangling_crashes (every dangling counterflow crashes), C65_negative_flows. Partial: all references resolve and flows >= 0. A number of flows too large for a slice (above 2^45) panics as well (C65_too_many_flows)."
  },
  {
   "property": "C66",
   "status": "proved",
   "theorems": [
    "Verif.Props.C66_resync"
   ],
   "note": "Source stores before publishing and chains versions (Src model); attributes the last version does not transmit may survive (C36_counterexample)."
  },
  {
   "property": "C67",
   "status": "proved",
   "theorems": [
    "Verif.Props.C67_rate",
    "Verif.Props.C67_no_burst"
   ],
   "note": "Go tickers modelled as in the runtime (missed ticks skipped); start of tickers after the first beacon."
  },
  {
   "property": "C68",
   "status": "partial",
   "theorems": [
    "Verif.Props.C68_deadlock",
    "Verif.Props.C68_counterexample",
    "Verif.Props.C68_returns_partial"
   ],
   "note": "Negated by C68_counterexample. Proved for handlers that do not call the container."
  },
  {
   "property": "C69",
   "status": "partial",
   "theorems": [
    "Verif.Props.C69_hangs",
    "Verif.Props.C69_context_partial",
    "Verif.Props.C69_counterexample",
    "Verif.Props.C69_wakes"
   ],
   "note": "Negated (C69_counterexample, C69_hangs). What holds: C69_context_partial, the call returns its context's error once its own context has ended."
  },
  {
   "property": "C70",
   "status": "partial",
   "theorems": [
    "Verif.Props.C70_stuck",
    "Verif.Props.C70_subscribe_blocked",
    "Verif.Props.C70_counterexample",
    "Verif.Props.C70_room_partial",
    "Verif.Props.C70_waits_partial"
   ],
   "note": "Negated by C70_counterexample and C70_subscribe_blocked. Proved when the receivers to serve have room or are closed (C70_room_partial); C70_waits_partial lists everything a Send can wait for."
  },
  {
   "property": "C71",
   "status": "proved",
   "theorems": [
    "Verif.Props.C71_upload"
   ],
   "note": "JSON decoding of a record is a parameter; holds for every decoder."
  },
  {
   "property": "C72",
   "status": "partial",
   "theorems": [
    "Verif.Props.C72_managers_partial",
    "Verif.Props.C72_counterexample"
   ],
   "note": "Negated by C72_counterexample (two sources with one name). Partial: distinct names."
  },
  {
   "property": "C73",
   "status": "proved",
   "theorems": [
    "Verif.Props.C73_replayed"
   ],
   "note": "Timing (tickers) is left out: the sequence of updates is modelled."
  },
  {
   "property": "C74",
   "status": "proved",
   "theorems": [
    "Verif.Props.C74_cleanup",
    "Verif.Props.C74_no_pod",
    "Verif.Props.C74_outcome"
   ],
   "note": "C74_no_pod shows a panic that still cleans up. The answer of the delete request is not modelled."
  },
  {
   "property": "C75",
   "status": "partial",
   "theorems": [
    "Verif.Props.C75_file_partial",
    "Verif.Props.C75_error_captured",
    "Verif.Props.C75_failed_truncates"
   ],
   "note": "Negated by C75_error_captured (status not checked) and C75_failed_truncates. Partial: on success the file is the body of the answer."
  },
  {
   "property": "C76",
   "status": "proved",
   "theorems": [
    "Verif.Props.C76_verification",
    "Verif.Props.C76_unreadable",
    "Verif.Props.C76_flags_ignored",
    "Verif.Props.C76_default_insecure"
   ],
   "note": "Also proved: -ca, -key and -tls-verify have no effect without -cert (C76_flags_ignored), and a connect.json without `verify` switches the check off (C76_default_insecure)."
  },
  {
   "property": "C77",
   "status": "partial",
   "theorems": [
    "Verif.Props.C77_external_partial",
    "Verif.Props.C77_certificate",
    "Verif.Props.C77_counterexample"
   ],
   "note": "False of the code: a -cert naming no file gives SASL EXTERNAL without a certificate (C77_counterexample). Partial: EXTERNAL iff there is a TLS configuration; C77_certificate says when it has a certificate."
  },
  {
   "property": "C78",
   "status": "partial",
   "theorems": [
    "Verif.Props.C78_root_partial",
    "Verif.Props.C78_type_partial",
    "Verif.Props.C78_not_found",
    "Verif.Props.C78_counterexample"
   ],
   "note": "False of the code: one record with a time after the year 9999 empties the answer (C78_counterexample). Partial: exact when all stored times are in the years 0-9999, and empty otherwise."
  },
  {
   "property": "C79",
   "status": "partial",
   "theorems": [
    "Verif.Props.C79_limit_partial",
    "Verif.Props.C79_unlimited",
    "Verif.Props.C79_idle_ends",
    "Verif.Props.C79_life"
   ],
   "note": "False of the code: an idle session longer than the limit counts as an outage (C79_idle_ends). Partial: the time since the last reported success exceeds the limit; C79_unlimited: never without a limit."
  },
  {
   "property": "C80",
   "status": "partial",
   "theorems": [
    "Verif.Props.C80_alone_partial",
    "Verif.Props.C80_shared_never_ends"
   ],
   "note": "False of the code: all containers of a factory share one backoff (C80_shared_never_ends). Partial: a container alone with its backoff."
  },
  {
   "property": "C81",
   "status": "partial",
   "theorems": [
    "Verif.Props.C81_sources",
    "Verif.Props.C81_served_partial",
    "Verif.Props.C81_counterexample"
   ],
   "note": "/sources/ is exact (C81_sources). Records of forgotten sources stay (C81_counterexample). Partial: every record served is of a source once discovered."
  },
  {
   "property": "C82",
   "status": "partial",
   "theorems": [
    "Verif.Props.C82_capture_partial",
    "Verif.Props.C82_counterexample",
    "Verif.Props.C82_time_written",
    "Verif.Props.C82_time",
    "Verif.Props.C82_time_text",
    "Verif.Props.C82_time_read",
    "Verif.Props.C82_record",
    "Verif.Props.C82_number",
    "Verif.Props.C82_wrong_kind",
    "Verif.Props.C82_null_field",
    "Verif.Props.C82_overwrites",
    "Verif.Props.C82_record_unwritable",
    "Verif.Props.C82_entry_written",
    "Verif.Props.C82_list",
    "Verif.Props.C82_bad_body",
    "Verif.Props.C82_no_record",
    "Verif.Props.C82_null"
   ],
   "note": "Negated: C82_counterexample (a router and a site under one ID become one entry that says router and holds a site; uploaded it is a router without the captured location). What holds: with one kind per ID the answer, unless empty because of a time that cannot be written (C78), is accepted and each source lists exactly its captured entries of configured kinds, unchanged. Records with a time outside the years 0 to 9999 cannot be written at all (C82_record_unwritable)."
  },
  {
   "property": "C83",
   "status": "partial",
   "theorems": [
    "Verif.Props.C83_attempted_partial",
    "Verif.Props.C83_content",
    "Verif.Props.C83_flushed_partial",
    "Verif.Props.C83_progress",
    "Verif.Props.C83_gives_up",
    "Verif.Props.C83_shutdown",
    "Verif.Props.C83_counterexample"
   ],
   "note": "Negated: C83_counterexample (one failed send and the goroutine is over; C83_gives_up: nothing is ever sent again). What holds: at least one and at most two requests are handed over, to the right address; with a sender that fails only by its context the request is accepted unless the tool shuts down; no deadlock."
  },
  {
   "property": "C84",
   "status": "partial",
   "theorems": [
    "Verif.Props.C84_handed_partial",
    "Verif.Props.C84_written_partial",
    "Verif.Props.C84_progress",
    "Verif.Props.C84_returns",
    "Verif.Props.C84_counterexample",
    "Verif.Props.C84_lost_at_end"
   ],
   "note": "Negated: C84_counterexample (a record that ends in the year 10000 costs its whole message), C84_lost_at_end. What holds: per client in order, one value per message, written in channel order, each once, without exactly those with such a time."
  },
  {
   "property": "C85",
   "status": "proved",
   "theorems": [
    "Verif.Props.C85_times",
    "Verif.Props.C85_panics_iff",
    "Verif.Props.C85_wire"
   ],
   "note": ""
  },
  {
   "property": "C86",
   "status": "partial",
   "theorems": [
    "Verif.Props.C86_counterexample",
    "Verif.Props.C86_lost",
    "Verif.Props.C86_received_partial"
   ],
   "note": "Negated: C86_counterexample; C86_lost: a message with a record of one of five registered kinds is never delivered. What holds: all other messages of well-formed records are delivered whole."
  },
  {
   "property": "C87",
   "status": "proved",
   "theorems": [
    "Verif.Props.C87_coalesced",
    "Verif.Props.C87_all_served",
    "Verif.Props.C87_no_delay",
    "Verif.Props.C87_drains"
   ],
   "note": "Requests that find the queue full are dropped by design (C39 covers them); the counting is for runs without such drops."
  },
  {
   "property": "C88",
   "status": "partial",
   "theorems": [
    "Verif.Props.C88_one_upload",
    "Verif.Props.C88_settled_partial",
    "Verif.Props.C88_status",
    "Verif.Props.C88_replays",
    "Verif.Props.C88_answer",
    "Verif.Props.C88_replays_begin",
    "Verif.Props.C88_neg_containers"
   ],
   "note": "Negated: C88_neg_containers: the connections of replaced managers stay open until the tool ends. What holds: managers, status and /flows are those of the last upload (C88_settled_partial, C88_one_upload, C88_status, C88_answer)."
  },
  {
   "property": "C89",
   "status": "partial",
   "theorems": [
    "Verif.Props.C89_bad_body",
    "Verif.Props.C89_replay_ends",
    "Verif.Props.C89_story",
    "Verif.Props.C89_rest",
    "Verif.Props.C89_answered_partial",
    "Verif.Props.C89_slow_client",
    "Verif.Props.C89_neg_slow_client",
    "Verif.Props.C89_neg_shutdown"
   ],
   "note": "Negated: C89_neg_slow_client (a client of /flows that does not send its body keeps every later request from being answered, because the lock is held), C89_neg_shutdown. What holds: C89_story, C89_rest, C89_answered_partial (no such client, no shutdown)."
  },
  {
   "property": "C90",
   "status": "partial",
   "theorems": [
    "Verif.Props.C90_count",
    "Verif.Props.C90_once",
    "Verif.Props.C90_rest",
    "Verif.Props.C90_ends_partial",
    "Verif.Props.C90_stuck",
    "Verif.Props.C90_neg_replaced"
   ],
   "note": "Negated: C90_neg_replaced, C90_stuck: a replay whose manager is replaced waits for ever in PublishUpdate. What holds: C90_ends_partial (no manager is replaced), C90_count, C90_once."
  },
  {
   "property": "C91",
   "status": "partial",
   "theorems": [
    "Verif.Props.C91_reports",
    "Verif.Props.C91_success_partial",
    "Verif.Props.C91_waits",
    "Verif.Props.C91_failure_partial",
    "Verif.Props.C91_panic_partial",
    "Verif.Props.C91_quiet_partial",
    "Verif.Props.C91_false_failure",
    "Verif.Props.C91_false_success",
    "Verif.Props.C91_panic"
   ],
   "note": "The goroutine of the port forward assigns the variable err of Run. Counterexamples: a complete capture reported as failure, a broken one reported as success and a panic (the last two need ForwardPorts to return nil while Run goes on, which depends on the client-go version). Proved: what each outcome implies in every interleaving, and that a run whose port forward stays up is the function of C74 and C75."
  },
  {
   "property": "C92",
   "status": "partial",
   "theorems": [
    "Verif.Props.C92_container_ends",
    "Verif.Props.C92_why",
    "Verif.Props.C92_server",
    "Verif.Props.C92_bounded",
    "Verif.Props.C92_returns",
    "Verif.Props.C92_container_partial",
    "Verif.Props.C92_grace_partial",
    "Verif.Props.C92_no_server",
    "Verif.Props.C92_deaf",
    "Verif.Props.C92_cut",
    "Verif.Props.C92_graceful"
   ],
   "note": "Counterexamples: a server that cannot listen is only logged; a container that gives up before its handler is registered tells nobody; cancel is reassigned by the shutdown, so a late container error cuts requests off. Proved: why the commands return, that they do after an interrupt or a container error told to the handler, and the second for requests otherwise."
  },
  {
   "property": "C93",
   "status": "partial",
   "theorems": [
    "Verif.Props.C93_only_these",
    "Verif.Props.C93_generation_read",
    "Verif.Props.C93_no_race_partial",
    "Verif.Props.C93_accesses",
    "Verif.Props.C93_pairs",
    "Verif.Props.C93_attached",
    "Verif.Props.C93_replace",
    "Verif.Props.C93_registers",
    "Verif.Props.C93_capture_end",
    "Verif.Props.C93_link_race",
    "Verif.Props.C93_backoff_race",
    "Verif.Props.C93_cancel_race",
    "Verif.Props.C93_source_race",
    "Verif.Props.C93_err_race",
    "Verif.Props.C93_registry_race"
   ],
   "note": "Partial: the race-free theorem needs that no two goroutines use one link (except to close it) or one BackOff, that registries are filled before use, and that the local variables cancel, src and err are not shared; each is shown to be needed by a race. C93_only_these is unconditional: no race on any other variable. The model abstracts from values, so a race found in it is on a path of the code but whether the values allow it is argued in comments."
  },
  {
   "property": "C94",
   "status": "proved",
   "theorems": [
    "Verif.Props.C94_mutex",
    "Verif.Props.C94_balanced",
    "Verif.Props.C94_no_deadlock",
    "Verif.Props.C94_all_released"
   ],
   "note": ""
  },
  {
   "property": "C95",
   "status": "partial",
   "theorems": [
    "Verif.Props.C95_setup",
    "Verif.Props.C95_below",
    "Verif.Props.C95_other_partial",
    "Verif.Props.C95_listed",
    "Verif.Props.C95_slash",
    "Verif.Props.C95_answered",
    "Verif.Props.C95_unlisted_answered",
    "Verif.Props.C95_fixture"
   ],
   "note": "Not true of unlisted paths below a listed one: the mux matches by prefix, so /flow/v1/SiteRecord/no-such-site is answered with 200 and all sites (C95_unlisted_answered). Proved for all other paths (C95_other_partial); everything else in the claim is proved for all paths."
  },
  {
   "property": "C96",
   "status": "partial",
   "theorems": [
    "Verif.Props.C96_live_partial",
    "Verif.Props.C96_listeners_partial",
    "Verif.Props.C96_forgotten",
    "Verif.Props.C96_record"
   ],
   "note": "partial: assumes that sends return in time. sendWithTimeout passes on its own context, not the one with the deadline (C42), so they need not: C96_forgotten is a run with the default settings in which a source that goes on is forgotten. C96_live_partial is for one listener, C96_listeners_partial for any number: since activity recorded can be older than activity recorded before (C52_counterexample_race), the delivery time counts twice there."
  },
  {
   "property": "C97",
   "status": "proved",
   "theorems": [
    "Verif.Props.C97_in_time",
    "Verif.Props.C97_goes_on"
   ],
   "note": ""
  },
  {
   "property": "C98",
   "status": "partial",
   "theorems": [
    "Verif.Props.C98_simple_accepts",
    "Verif.Props.C98_simple_encode",
    "Verif.Props.C98_simple_decode",
    "Verif.Props.C98_accepts",
    "Verif.Props.C98_coherent_accepted",
    "Verif.Props.C98_handed_over",
    "Verif.Props.C98_arrives_partial",
    "Verif.Props.C98_named_never_arrives",
    "Verif.Props.C98_iface_panics",
    "Verif.Props.C98_value_receiver",
    "Verif.Props.C98_encoder_only",
    "Verif.Props.C98_zero",
    "Verif.Props.C98_method_answers",
    "Verif.Props.C98_panics"
   ],
   "note": "partial: holds for scalars of predeclared types and types with both methods, the decoder on the pointer. Accepted but broken: defined scalar types without methods (never decoded, C98_named_never_arrives), an encoder without decoder (C98_encoder_only), decoders on the value (C98_value_receiver), interfaces (panic, C98_iface_panics). No built-in record uses such a field."
  },
  {
   "property": "C99",
   "status": "proved",
   "theorems": [
    "Verif.Props.C99_way_out",
    "Verif.Props.C99_soon",
    "Verif.Props.C99_only_then",
    "Verif.Props.C99_for_good",
    "Verif.Props.C99_sender_way_out",
    "Verif.Props.C99_sender_for_good"
   ],
   "note": ""
  },
  {
   "property": "C100",
   "status": "proved",
   "theorems": [
    "Verif.Props.C100_no_panic",
    "Verif.Props.C100_delivered",
    "Verif.Props.C100_converges"
   ],
   "note": "C100_no_panic and C100_delivered hold for collectors that join at any time (Sys.Join): the source may have done anything before. C100_converges is for collectors that were there before the source started (Sys.Start); for late ones see C104."
  },
  {
   "property": "C101",
   "status": "partial",
   "theorems": [
    "Verif.Props.C101_bounds",
    "Verif.Props.C101_waits_iff",
    "Verif.Props.C101_gets_through_partial",
    "Verif.Props.C101_after_the_end",
    "Verif.Props.C101_stopped_counterexample"
   ],
   "note": "Proved: the bounds, and when a publication waits. Getting through is proved while the manager runs; false once it has stopped (PublishUpdate does not watch the context): C101_stopped_counterexample."
  },
  {
   "property": "C102",
   "status": "proved",
   "theorems": [
    "Verif.Props.C102_rest",
    "Verif.Props.C102_rest_conv",
    "Verif.Props.C102_bounded",
    "Verif.Props.C102_arrives"
   ],
   "note": "Own moves are the steps of serve, sendRecords, the Send it is in, and the listener (Spec/Progress). C102_bounded: a bound for runs of own moves from any reachable state whose manager stores are in good order (StoreOK, as in C39); C102_rest and C102_rest_conv: at rest exactly when worked off; C102_arrives: with C100, the entry in the collector's store. Conditions that are not derived: no other receiver on the address is full in the last state (see C70), the manager has not panicked, no Send failed (Lossless), nobody is closing the client (see C43, C44)."
  },
  {
   "property": "C103",
   "status": "partial",
   "theorems": [
    "Verif.Props.C103_flush_writes_partial",
    "Verif.Props.C103_counterexample"
   ],
   "note": "C103_flush_writes_partial: for an entry of which P holds all the time (Stays in Spec/Resync), some message of the flush has it in a version it had during the flush. Missing: deletes of smaller keys during the flush, for which the claim is false (C103_counterexample: three hosts, page size two, the first is deleted after the first page; the third is never sent)."
  },
  {
   "property": "C104",
   "status": "proved",
   "theorems": [
    "Verif.Props.C104_before",
    "Verif.Props.C104_resync",
    "Verif.Props.C104_arrives",
    "Verif.Props.C104_exact"
   ],
   "note": "C104_resync: at a time when all is handled (Still); C104_before: the collector may come at any time, also while a message is being sent, and its receiver be subscribed later, but before the flush message; C104_arrives: with C102, when the goroutines are left alone until they cannot move; C104_exact: with no entry before and no attribute ever cleared, the entry has exactly the attributes of the last version. The condition Stays of C103 is an assumption; without it a flush may miss the record (C103_counterexample). That the flush message gets from the router to the manager is C107."
  },
  {
   "property": "C105",
   "status": "proved",
   "theorems": [
    "Verif.Props.C105_honest"
   ],
   "note": "C105_honest: for collectors that join at any time (Sys.Join), with any losses. The collector's stale entry, if any, is one of the record type of the id."
  },
  {
   "property": "C106",
   "status": "partial",
   "theorems": [
    "Verif.Props.C106_forward_partial",
    "Verif.Props.C106_counterexample",
    "Verif.Props.C106_calm",
    "Verif.Props.C106_told_partial"
   ],
   "note": "C106_forward_partial: for collectors that are there from the start, while nothing is lost and no flush sends the record (NotFlushed). Missing: flushes of the record, for which the claim is false (C106_counterexample: a host is written and renamed, the flush is served before the two updates are taken; the collector shows y, then x, then y).  C106_told_partial: flushes may send the record if each attribute they send has the value that was sent last (OnlyTold, in Spec/Told); no flush at all is a special case (notFlushed_told). C106_calm: the condition OnlyTold holds if, whenever a flush message is queued, every version of the record is published and no update of it waits in the change queue (Src.CalmRun, in Spec/Told); so only a flush served while updates wait can make a collector go back."
  },
  {
   "property": "C107",
   "status": "proved",
   "theorems": [
    "Verif.Props.C107_can_end",
    "Verif.Props.C107_heard",
    "Verif.Props.C107_resync",
    "Verif.Props.C107_not_stuck"
   ],
   "note": "C107_heard: the request becomes a flushReceived of the manager; C107_resync: with C104; C107_not_stuck. The Sends to the direct address are assumed to have returned and the flush receiver's channel to be empty at the end. Errors of the receiver other than the end of the context are excluded (the mock has none while the receiver is open)."
  },
  {
   "property": "C108",
   "status": "partial",
   "theorems": [
    "Verif.Props.C108_heard",
    "Verif.Props.C108_subscribed_partial",
    "Verif.Props.C108_first_partial",
    "Verif.Props.C108_counterexample"
   ],
   "note": "C108_subscribed_partial: the receiver of the record listener is subscribed at a moment when the Send of the flush message is not called; C108_first_partial: the first message comes within the five seconds and on the record listener. C108_counterexample: a heartbeat comes first. C108_heard: in any case the manager receives the request (if it lives). Conditions of C104 (Stays, Lossless) are assumed, and that the Sends to the direct address have returned. What is missing for a full proof: the code does not wait for the subscription."
  },
  {
   "property": "C109",
   "status": "partial",
   "theorems": [
    "Verif.Props.C109_observed",
    "Verif.Props.C109_known",
    "Verif.Props.C109_discovered_partial",
    "Verif.Props.C109_counterexample",
    "Verif.Props.C109_not_stuck",
    "Verif.Props.C109_can_return"
   ],
   "note": "C109_observed, C109_known: full, for every run. C109_discovered_partial adds the data, under the condition that nobody else announces the identity with other data (Sincere); C109_counterexample: a source restarted with another address keeps the old one (cf. C48). Conditions on the end of the run: the accepted Sends to the address of the beacons have returned, the channel is empty, Run is in Next, no message without subject came (C51)."
  },
  {
   "property": "C110",
   "status": "partial",
   "theorems": [
    "Verif.Props.C110_listeners_partial",
    "Verif.Props.C110_containers",
    "Verif.Props.C110_container",
    "Verif.Props.C110_container_ctx",
    "Verif.Props.C110_counterexample",
    "Verif.Props.C110_no_panic",
    "Verif.Props.C110_late",
    "Verif.Props.C110_one_watch",
    "Verif.Props.C110_watched",
    "Verif.Props.C110_listens",
    "Verif.Props.C110_registered",
    "Verif.Props.C110_leak",
    "Verif.Props.C110_late_example",
    "Verif.Props.C110_shutdown",
    "Verif.Props.C110_can_release",
    "Verif.Props.C110_handler_goes_on",
    "Verif.Props.C110_log_example"
   ],
   "note": "The container started for a source is never stopped: while the tool runs it ends only by giving up reconnecting, so n discoveries and forgettings leave n running containers with no source known (C110_containers, C110_counterexample, C110_leak). If the Discovered handler is delayed until its watch has forgotten the source and closed the client, the listeners started after that never end (C110_late, C110_late_example). Holds: when the handler had returned before Close did, no listener is left and no handler is called (C110_listeners_partial); one watch per known source (C110_one_watch); NewWatchClient never fails (C110_watched); Close is called once (C110_no_panic); addresses (C110_listens) and registration (C110_registered). C110_can_release, C110_handler_goes_on: when the tool's context has ended, everything of a source can be released; C110_log_example exercises the steps of the log mode."
  },
  {
   "property": "C111",
   "status": "partial",
   "theorems": [
    "Verif.Props.C111_can_end",
    "Verif.Props.C111_can_end_example",
    "Verif.Props.C111_discovery",
    "Verif.Props.C111_client_partial",
    "Verif.Props.C111_flushes_partial",
    "Verif.Props.C111_flushes",
    "Verif.Props.C111_lasts",
    "Verif.Props.C111_ends",
    "Verif.Props.C111_stray",
    "Verif.Props.C111_flushes_none",
    "Verif.Props.C111_counterexample_flushes",
    "Verif.Props.C111_counterexample_nil",
    "Verif.Props.C111_counterexample_client",
    "Verif.Props.C111_instance",
    "Verif.Props.C111_stray_example"
   ],
   "note": "False in two places. listenFlushes goes on after an error of Next: when a session fails and the context of the manager ends before Next checks it, the error is not that of the context, and a flush is queued and Accept called with a nil message (C111_counterexample_flushes, C111_counterexample_nil). Client.Listen drops a received message when accepting it fails (C111_counterexample_client). Proved: Discovery.Run handles every message once in order; the client those it accepts; listenFlushes until its context ends, and exactly what it does afterwards; the loops outlast every session failure; the bound on stray errors, which is reached (C111_stray_example). C111_can_end: from any state in which the context has ended, the container stands and the channel of errors has room, the loop can end with at most one more message received."
  },
  {
   "property": "C112",
   "status": "partial",
   "theorems": [
    "Verif.Props.C112_reads",
    "Verif.Props.C112_unique",
    "Verif.Props.C112_first",
    "Verif.Props.C112_first_sound",
    "Verif.Props.C112_written",
    "Verif.Props.C112_injective",
    "Verif.Props.C112_safe",
    "Verif.Props.C112_plain",
    "Verif.Props.C112_lines",
    "Verif.Props.C112_stream",
    "Verif.Props.C112_upload",
    "Verif.Props.C112_capture_partial",
    "Verif.Props.C112_refused",
    "Verif.Props.C112_counterexample"
   ],
   "note": "Negated: what follows the first JSON value of a text is not read. Proved: the reader accepts exactly the texts of RFC 8259, the writer writes such a text, and reading gives the value back."
  },
  {
   "property": "C113",
   "status": "proved",
   "theorems": [
    "Verif.Props.C113_line",
    "Verif.Props.C113_output",
    "Verif.Props.C113_encodable"
   ],
   "note": ""
  },
  {
   "property": "C114",
   "status": "partial",
   "theorems": [
    "Verif.Props.C114_honest",
    "Verif.Props.C114_resync_partial",
    "Verif.Props.C114_counterexample"
   ],
   "note": "negation C114_counterexample; the partial theorem needs a flush message after the new receiver is subscribed. On the mock router: a lost connection is a receiver the listener no longer uses. What changes after the new receiver was subscribed arrives without a flush: C128_relinked."
  },
  {
   "property": "C115",
   "status": "partial",
   "theorems": [
    "Verif.Props.C115_parse",
    "Verif.Props.C115_command",
    "Verif.Props.C115_unique",
    "Verif.Props.C115_misplaced",
    "Verif.Props.C115_exit",
    "Verif.Props.C115_used_partial",
    "Verif.Props.C115_counterexample",
    "Verif.Props.C115_ignored",
    "Verif.Props.C115_server_ignored",
    "Verif.Props.C115_line_example",
    "Verif.Props.C115_run_example"
   ],
   "note": "Parsing is characterised exactly by a small grammar of command lines (C115_parse, C115_command, C115_exit, C115_misplaced). Partial: -ca, -key and -tls-verify are accepted and ignored when there is no -cert (C115_counterexample, C115_ignored), and -server beside -messaging-config (C115_server_ignored); C115_used_partial is what holds."
  },
  {
   "property": "C116",
   "status": "partial",
   "theorems": [
    "Verif.Props.C116_reads",
    "Verif.Props.C116_refused",
    "Verif.Props.C116_settings_partial",
    "Verif.Props.C116_example",
    "Verif.Props.C116_example_twice",
    "Verif.Props.C116_example_refused",
    "Verif.Props.C116_counterexample",
    "Verif.Props.C116_empty"
   ],
   "note": "Negated by C116_counterexample: without a CA the tls settings of the file are ignored, the client certificate among them. C116_empty: a file without settings is not refused. C116_reads is an equivalence for every text."
  },
  {
   "property": "C117",
   "status": "partial",
   "theorems": [
    "Verif.Props.C117_lookup",
    "Verif.Props.C117_one_line",
    "Verif.Props.C117_conventional_partial",
    "Verif.Props.C117_ignored",
    "Verif.Props.C117_builtin",
    "Verif.Props.C117_counterexample",
    "Verif.Props.C117_example",
    "Verif.Props.C117_example_ignored"
   ],
   "note": "False: a tag that is not in the conventional format up to its vflow pair (a blank after the colon, missing quotes, an unfinished pair before it) is passed over silently and the field is never sent or received (C117_counterexample, C117_ignored). Proved for tags in the conventional format (C117_conventional_partial), exactly which tags are used (C117_lookup), and that the tags of all built-in records are read as meant (C117_builtin). The meaning of backslashes in a quoted value is a parameter."
  },
  {
   "property": "C118",
   "status": "proved",
   "theorems": [
    "Verif.Props.C118_read",
    "Verif.Props.C118_written",
    "Verif.Props.C118_writable",
    "Verif.Props.C118_message",
    "Verif.Props.C118_direct",
    "Verif.Props.C118_records",
    "Verif.Props.C118_beacon",
    "Verif.Props.C118_heartbeat",
    "Verif.Props.C118_flush",
    "Verif.Props.C118_string_keys",
    "Verif.Props.C118_other_body",
    "Verif.Props.C118_types",
    "Verif.Props.C118_bad_key",
    "Verif.Props.C118_properties",
    "Verif.Props.C118_one_value",
    "Verif.Props.C118_refused",
    "Verif.Props.C118_bad_body",
    "Verif.Props.C118_nil_map"
   ],
   "note": "Proved about a reader and writer of AMQP values written down from the behaviour of go-amqp v1.0.4, which is not in /repo. The encodings of the standard are a separate relation. Not modelled: frames, transfers, the types vanflow has no use for, Go strings that are not UTF-8 (the library refuses to write them, and link.Send then reports a session error).  A map with a key that is no key of a Go map is refused, as an element or as the body (C118_bad_key, C118_bad_body); nil maps are sent as empty ones (C118_nil_map). The Go types in error texts (%T) are not modelled."
  },
  {
   "property": "C119",
   "status": "partial",
   "theorems": [
    "Verif.Props.C119_costs_all",
    "Verif.Props.C119_counterexample",
    "Verif.Props.C119_accept_partial",
    "Verif.Props.C119_encoded_partial",
    "Verif.Props.C119_refused"
   ],
   "note": "partial: the property is false. C119_costs_all: with operations that do not overlap on a link, a Send whose message is refused does not return before the container has been told to give up the session (C119_counterexample: a receiver on another link is lost, nothing else having failed). The partial theorems: errors of Accept are told nobody; messages made by the encoders (strings of UTF-8) are refused only if they are longer than the peer of the link allows (go-amqp's rules as remembered)."
  },
  {
   "property": "C120",
   "status": "proved",
   "theorems": [
    "Verif.Props.C120_same_session",
    "Verif.Props.C120_instance",
    "Verif.Props.C120_overlap"
   ],
   "note": ""
  },
  {
   "property": "C121",
   "status": "partial",
   "theorems": [
    "Verif.Props.C121_merge_panics",
    "Verif.Props.C121_diff_panics",
    "Verif.Props.C121_second_panics",
    "Verif.Props.C121_update_panics",
    "Verif.Props.C121_counterexample",
    "Verif.Props.C121_keepable_partial",
    "Verif.Props.C121_scalars",
    "Verif.Props.C121_equal",
    "Verif.Props.C121_published",
    "Verif.Props.C121_uncaught"
   ],
   "note": "False for types that encode to slices or maps (C121_counterexample, C121_second_panics, C121_update_panics; exactly then: C121_merge_panics, C121_diff_panics); proved for comparable attributes."
  },
  {
   "property": "C122",
   "status": "partial",
   "theorems": [
    "Verif.Props.C122_counted",
    "Verif.Props.C122_ignored_partial",
    "Verif.Props.C122_counterexample",
    "Verif.Props.C122_goes_on",
    "Verif.Props.C122_sent"
   ],
   "note": "What is ignored is proved exactly; nothing is ever aborted (C122_counterexample), the loop goes on until the context ends (C122_goes_on)."
  },
  {
   "property": "C123",
   "status": "partial",
   "theorems": [
    "Verif.Props.C123_refines",
    "Verif.Props.C123_settled",
    "Verif.Props.C123_later_partial",
    "Verif.Props.C123_safe_partial",
    "Verif.Props.C123_connections",
    "Verif.Props.C123_no_wait_partial",
    "Verif.Props.C123_enters_partial",
    "Verif.Props.C123_waits",
    "Verif.Props.C123_counterexample"
   ],
   "note": "False when operations on a link overlap: getReceiver and getSender hold r.mu while go-amqp attaches (container.go:358-384), so a second operation on the link, or Close, waits for the answer to the first whatever its own context says (C123_waits, C123_counterexample). Partial: links used by one operation at a time and closed when not in use. C123_refines carries the claims about Model/Container over to the model in which those calls take time."
  },
  {
   "property": "C124",
   "status": "partial",
   "theorems": [
    "Verif.Props.C124_fresh",
    "Verif.Props.C124_proceeds_partial",
    "Verif.Props.C124_blame_partial",
    "Verif.Props.C124_one_session",
    "Verif.Props.C124_counterexample_stuck",
    "Verif.Props.C124_counterexample_blamed",
    "Verif.Props.C124_counterexample_together",
    "Verif.Props.C124_can_fail",
    "Verif.Props.C124_queue"
   ],
   "note": "False: every call of Start counts generations from 1 (container.go:169) while links keep the generation they had, so after a restart a link that lost generation 1 is not given the new session of generation 1 (C124_counterexample_stuck), and a late error of the old generation 1 ends the new one (C124_counterexample_blamed); two calls at once read each other's errors (C124_counterexample_together). For any number of calls: what a waiting link gets is the newest session and not its old one (C124_fresh), and one call at a time leaves at most one session open (C124_one_session). Partial: Start called once."
  },
  {
   "property": "C125",
   "status": "partial",
   "theorems": [
    "Verif.Props.C125_done",
    "Verif.Props.C125_panics",
    "Verif.Props.C125_counterexample_listen",
    "Verif.Props.C125_counterexample_close",
    "Verif.Props.C125_apart_partial",
    "Verif.Props.C125_wakes",
    "Verif.Props.C125_leaves",
    "Verif.Props.C125_swap"
   ],
   "note": "False: Listen calls wg.Add(1) before it takes the lock (client.go:88), so it can fall between the last Done and the end of Wait; then Listen or Close panics (C125_counterexample_listen, C125_counterexample_close). The listeners' Done never panics and no wake-up is lost however they overlap (C125_done, C125_wakes). Partial: calls that do not overlap.  C125_panics: the panics among the events of a run are what it crashed of."
  },
  {
   "property": "C126",
   "status": "partial",
   "theorems": [
    "Verif.Props.C126_someone",
    "Verif.Props.C126_given_partial",
    "Verif.Props.C126_lost",
    "Verif.Props.C126_counterexample",
    "Verif.Props.C126_kept"
   ],
   "note": "Negated: a closed receiver stays in multicast.receivers, so a Send that finds only closed receivers returns nil and the message is lost (C126_counterexample; C126_lost for every such state; C126_kept: the lists only grow).  Partial: every open receiver that subscribed before the message was sent has it when Send returns (C126_given_partial); some receiver had subscribed (C126_someone)."
  },
  {
   "property": "C127",
   "status": "partial",
   "theorems": [
    "Verif.Props.C127_listed_partial",
    "Verif.Props.C127_complete_partial",
    "Verif.Props.C127_half",
    "Verif.Props.C127_same_id",
    "Verif.Props.C127_mixed"
   ],
   "note": "Negated: flows of all sources share one map by ID, so of two flows with one ID only one is listed (C127_same_id) or a flow is listed with a counterflow it does not name (C127_mixed); a flow without its counterflow is listed with an empty entry (C127_half).  Partial: with unique IDs, exactly once, in every order of the maps (C127_listed_partial, C127_complete_partial)."
  },
  {
   "property": "C128",
   "status": "proved",
   "theorems": [
    "Verif.Props.C128_changed",
    "Verif.Props.C128_before",
    "Verif.Props.C128_relinked"
   ],
   "note": ""
  },
  {
   "property": "C129",
   "status": "partial",
   "theorems": [
    "Verif.Props.C129_start",
    "Verif.Props.C129_flushed_partial",
    "Verif.Props.C129_differ",
    "Verif.Props.C129_kept",
    "Verif.Props.C129_changed",
    "Verif.Props.C129_counterexample"
   ],
   "note": "Negated by C129_counterexample: an attribute taken away stays with a collector that was there and is unknown to one that joins later, in spite of a flush. C129_flushed_partial: every attribute of the last version. C129_start and C129_changed are full.  Where two collectors differ, the attribute is one the last version lacks and an earlier one had (C129_differ); if the source takes nothing away they agree about everything (C129_kept; its instance is in Props/CollectorsKept)."
  }
 ]
}
