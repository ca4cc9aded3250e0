-- Generated by tools/gen_manifest.py: prints the axioms of every property theorem at build time.
import Verif.Props.AcceptSame
import Verif.Props.Accumulate
import Verif.Props.Alias
import Verif.Props.Alive
import Verif.Props.Announce
import Verif.Props.Backoff
import Verif.Props.Base
import Verif.Props.Capture
import Verif.Props.Changed
import Verif.Props.Client
import Verif.Props.CmdLine
import Verif.Props.Coalesce
import Verif.Props.Collectors
import Verif.Props.CollectorsKept
import Verif.Props.Compare
import Verif.Props.ConnectText
import Verif.Props.Container
import Verif.Props.ContainerMu
import Verif.Props.Diff
import Verif.Props.Discovered
import Verif.Props.Discovery
import Verif.Props.Dispatch
import Verif.Props.Enabled
import Verif.Props.Encoding
import Verif.Props.EndToEnd
import Verif.Props.FieldTypes
import Verif.Props.FirstFlush
import Verif.Props.Fixture
import Verif.Props.FixtureServer
import Verif.Props.FlowList
import Verif.Props.Flush
import Verif.Props.FlushWrites
import Verif.Props.Forward
import Verif.Props.ForwardFlush
import Verif.Props.Hushed
import Verif.Props.Json
import Verif.Props.JsonText
import Verif.Props.Keepalive
import Verif.Props.Locks
import Verif.Props.LogOnly
import Verif.Props.LogText
import Verif.Props.LoopEnds
import Verif.Props.Manager
import Verif.Props.Messages
import Verif.Props.Mock
import Verif.Props.MockLost
import Verif.Props.PerSource
import Verif.Props.Pipeline
import Verif.Props.Progress
import Verif.Props.Publish
import Verif.Props.Reconnect
import Verif.Props.RecvLoop
import Verif.Props.Release
import Verif.Props.Replay
import Verif.Props.Request
import Verif.Props.Resync
import Verif.Props.Routes
import Verif.Props.Selector
import Verif.Props.SendError
import Verif.Props.Serve
import Verif.Props.Sound
import Verif.Props.Starts
import Verif.Props.Stop
import Verif.Props.Store
import Verif.Props.StructTag
import Verif.Props.Threads
import Verif.Props.Time
import Verif.Props.ToolMain
import Verif.Props.ToolServer
import Verif.Props.Vancap
import Verif.Props.VancapForward
import Verif.Props.WaitGroup
import Verif.Props.Watch
import Verif.Props.WatchTimed
import Verif.Props.Wire

#print axioms Verif.Props.C01_canon_unique
#print axioms Verif.Props.C01_roundtrip
#print axioms Verif.Props.C01_pointer_argument
#print axioms Verif.Props.C01_code_zero_counterexample
#print axioms Verif.Props.C01_nil_codec_counterexample
#print axioms Verif.Props.C02_decode_encode
#print axioms Verif.Props.C03_decode_requires
#print axioms Verif.Props.C03_encode_requires
#print axioms Verif.Props.C03_encoded_has_required
#print axioms Verif.Props.C03_encode_accepts
#print axioms Verif.Props.C03_empty_identity_asymmetry
#print axioms Verif.Props.C04_unknown_ignored
#print axioms Verif.Props.C05_counterexample
#print axioms Verif.Props.C05_panics_only_on_null_partial
#print axioms Verif.Props.C05_no_null_no_panic_partial
#print axioms Verif.Props.C06_codes_unique
#print axioms Verif.Props.C06_types_unique
#print axioms Verif.Props.C06_encode_code_decodes
#print axioms Verif.Props.C06_register_adds
#print axioms Verif.Props.C06_register_refuses
#print axioms Verif.Props.C06_encode_stable
#print axioms Verif.Props.C06_decode_stable
#print axioms Verif.Props.C06_encode_refuses
#print axioms Verif.Props.C06_builtin_ok
#print axioms Verif.Props.C07_counterexample
#print axioms Verif.Props.C07_nonzero_transmitted_partial
#print axioms Verif.Props.C08_encode
#print axioms Verif.Props.C08_roundtrip
#print axioms Verif.Props.C08_order
#print axioms Verif.Props.C08_zero
#print axioms Verif.Props.C08_before_epoch
#print axioms Verif.Props.C08_decode_accepts_iff
#print axioms Verif.Props.C08_far_future_wraps
#print axioms Verif.Props.C09_beacon_roundtrip
#print axioms Verif.Props.C09_heartbeat_roundtrip
#print axioms Verif.Props.C09_flush_roundtrip
#print axioms Verif.Props.C10_record_roundtrip
#print axioms Verif.Props.C11_rejects
#print axioms Verif.Props.C11_kind_by_subject
#print axioms Verif.Props.C11_beacon_total
#print axioms Verif.Props.C11_heartbeat_total
#print axioms Verif.Props.C11_flush_total
#print axioms Verif.Props.C12_counterexample
#print axioms Verif.Props.C12_all_or_nothing_partial
#print axioms Verif.Props.C12_one_bad_rejects
#print axioms Verif.Props.C13_get_latest_write
#print axioms Verif.Props.C13_bad_key
#print axioms Verif.Props.C13_reads_pure
#print axioms Verif.Props.C13_update_stores
#print axioms Verif.Props.C14_add_creates
#print axioms Verif.Props.C14_add_never_overwrites
#print axioms Verif.Props.C15_counterexample
#print axioms Verif.Props.C15_stale_etag_partial
#print axioms Verif.Props.C15_malformed_etag
#print axioms Verif.Props.C16_etag_roundtrip
#print axioms Verif.Props.C16_continue_roundtrip
#print axioms Verif.Props.C16_etag_injective
#print axioms Verif.Props.C16_malformed_refused
#print axioms Verif.Props.C17_index_exact
#print axioms Verif.Props.C17_unknown_index
#print axioms Verif.Props.C17_reading_calls
#print axioms Verif.Props.C18_index_values
#print axioms Verif.Props.C19_delete_removes
#print axioms Verif.Props.C20_replace_exact
#print axioms Verif.Props.C21_last_writer_wins
#print axioms Verif.Props.C21_never_unset
#print axioms Verif.Props.C22_nothing_new
#print axioms Verif.Props.C22_uncaught
#print axioms Verif.Props.C22_counterexample
#print axioms Verif.Props.C22_twice_partial
#print axioms Verif.Props.C23_counterexample
#print axioms Verif.Props.C23_only_set
#print axioms Verif.Props.C23_no_handlers
#print axioms Verif.Props.C23_events_partial
#print axioms Verif.Props.C24_counterexample
#print axioms Verif.Props.C24_change_log_partial
#print axioms Verif.Props.C25_accumulate_no_panic
#print axioms Verif.Props.C25_kinds_merge
#print axioms Verif.Props.C26_counterexample
#print axioms Verif.Props.C26_window_partial
#print axioms Verif.Props.C26_bad_token
#print axioms Verif.Props.C27_paging
#print axioms Verif.Props.C28_counterexample
#print axioms Verif.Props.C28_paging_partial
#print axioms Verif.Props.C29_token_partial
#print axioms Verif.Props.C29_counterexample
#print axioms Verif.Props.C30_routing
#print axioms Verif.Props.C30_routing_builtin
#print axioms Verif.Props.C31_counterexample
#print axioms Verif.Props.C31_source_index_partial
#print axioms Verif.Props.C32_counterexample
#print axioms Verif.Props.C32_lookup_partial
#print axioms Verif.Props.C33_counterexample
#print axioms Verif.Props.C33_linearizable_partial
#print axioms Verif.Props.C33_single_writer_partial
#print axioms Verif.Props.C34_counterexample
#print axioms Verif.Props.C34_disciplined_partial
#print axioms Verif.Props.C35_counterexample
#print axioms Verif.Props.C35_diff_exact
#print axioms Verif.Props.C35_unencodable
#print axioms Verif.Props.C35_apply_partial
#print axioms Verif.Props.C36_converges_partial
#print axioms Verif.Props.C36_counterexample
#print axioms Verif.Props.C37_updates_in_order
#print axioms Verif.Props.C38_flush_complete
#print axioms Verif.Props.C39_flush_not_lost
#print axioms Verif.Props.C39_bounded
#print axioms Verif.Props.C39_quiescent
#print axioms Verif.Props.C39_flush_served
#print axioms Verif.Props.C40_counterexample
#print axioms Verif.Props.C40_dropped_iff_partial
#print axioms Verif.Props.C40_unbatched
#print axioms Verif.Props.C41_due
#print axioms Verif.Props.C41_announce_first
#print axioms Verif.Props.C41_content
#print axioms Verif.Props.C41_stops_partial
#print axioms Verif.Props.C41_counterexample
#print axioms Verif.Props.C42_expires
#print axioms Verif.Props.C42_counterexample
#print axioms Verif.Props.C42_timeout_partial
#print axioms Verif.Props.C43_handlers
#print axioms Verif.Props.C43_all_handlers
#print axioms Verif.Props.C43_keeps_listening_partial
#print axioms Verif.Props.C43_failures
#print axioms Verif.Props.C43_counterexample
#print axioms Verif.Props.C43_skips
#print axioms Verif.Props.C44_counterexample_stuck
#print axioms Verif.Props.C44_returns_partial
#print axioms Verif.Props.C44_listeners_stopped
#print axioms Verif.Props.C44_cancel
#print axioms Verif.Props.C44_cancels
#print axioms Verif.Props.C44_once_partial
#print axioms Verif.Props.C44_counterexample_twice
#print axioms Verif.Props.C44_can_return
#print axioms Verif.Props.C45_flush_once
#print axioms Verif.Props.C45_prompt
#print axioms Verif.Props.C45_gives_up
#print axioms Verif.Props.C46_alternate
#print axioms Verif.Props.C46_quiet
#print axioms Verif.Props.C46_list
#print axioms Verif.Props.C47_monotone_partial
#print axioms Verif.Props.C47_counterexample
#print axioms Verif.Props.C48_seen_partial
#print axioms Verif.Props.C48_first_partial
#print axioms Verif.Props.C48_counterexample
#print axioms Verif.Props.C49_deadlock_forever
#print axioms Verif.Props.C49_counterexample_handler
#print axioms Verif.Props.C49_counterexample_stopped
#print axioms Verif.Props.C49_progress_partial
#print axioms Verif.Props.C49_room_partial
#print axioms Verif.Props.C50_counterexample
#print axioms Verif.Props.C50_fifo_partial
#print axioms Verif.Props.C50_count_partial
#print axioms Verif.Props.C50_order_partial
#print axioms Verif.Props.C51_counterexample
#print axioms Verif.Props.C51_subject_partial
#print axioms Verif.Props.C51_panics_partial
#print axioms Verif.Props.C52_zero
#print axioms Verif.Props.C52_due
#print axioms Verif.Props.C52_active_partial
#print axioms Verif.Props.C52_listeners_partial
#print axioms Verif.Props.C52_decided
#print axioms Verif.Props.C52_counterexample_race
#print axioms Verif.Props.C52_counterexample_late
#print axioms Verif.Props.C52_counterexample_grace
#print axioms Verif.Props.C53_can_end
#print axioms Verif.Props.C53_drain
#print axioms Verif.Props.C53_goes_on
#print axioms Verif.Props.C53_one_more
#print axioms Verif.Props.C53_next_expiry
#print axioms Verif.Props.C53_can_forget
#print axioms Verif.Props.C53_stops
#print axioms Verif.Props.C53_returns_when_told
#print axioms Verif.Props.C54_order_partial
#print axioms Verif.Props.C54_later_partial
#print axioms Verif.Props.C54_counterexample_order
#print axioms Verif.Props.C54_counterexample_reuse
#print axioms Verif.Props.C54_instance
#print axioms Verif.Props.C55_current
#print axioms Verif.Props.C55_cause_partial
#print axioms Verif.Props.C55_closed_partial
#print axioms Verif.Props.C55_benign
#print axioms Verif.Props.C55_counterexample_late
#print axioms Verif.Props.C55_counterexample_close
#print axioms Verif.Props.C55_old_error
#print axioms Verif.Props.C56_next_never
#print axioms Verif.Props.C56_next_loops
#print axioms Verif.Props.C56_counterexample
#print axioms Verif.Props.C56_prompt_partial
#print axioms Verif.Props.C56_only_closed
#print axioms Verif.Props.C56_instance
#print axioms Verif.Props.C57_ignored
#print axioms Verif.Props.C57_counterexample
#print axioms Verif.Props.C57_nonpositive_partial
#print axioms Verif.Props.C58_decreases
#print axioms Verif.Props.C58_enabled_partial
#print axioms Verif.Props.C58_blocked_forever
#print axioms Verif.Props.C58_counterexample
#print axioms Verif.Props.C59_exclusive_partial
#print axioms Verif.Props.C59_counterexample_close
#print axioms Verif.Props.C59_counterexample_overlap
#print axioms Verif.Props.C60_connections_partial
#print axioms Verif.Props.C60_replaced
#print axioms Verif.Props.C60_receiver_partial
#print axioms Verif.Props.C60_counterexample_connection
#print axioms Verif.Props.C60_counterexample_sender
#print axioms Verif.Props.C60_counterexample_late
#print axioms Verif.Props.C60_one_endpoint_partial
#print axioms Verif.Props.C60_counterexample_two
#print axioms Verif.Props.C60_can_end
#print axioms Verif.Props.C61_retryable
#print axioms Verif.Props.C61_final
#print axioms Verif.Props.C61_each
#print axioms Verif.Props.C61_gives_up
#print axioms Verif.Props.C61_cancelled
#print axioms Verif.Props.C61_interrupted
#print axioms Verif.Props.C61_instance
#print axioms Verif.Props.C62_close_sender
#print axioms Verif.Props.C62_order
#print axioms Verif.Props.C62_complete
#print axioms Verif.Props.C62_sent
#print axioms Verif.Props.C62_quiet
#print axioms Verif.Props.C62_closed_sender
#print axioms Verif.Props.C62_closed_receiver
#print axioms Verif.Props.C62_instance
#print axioms Verif.Props.C63_group
#print axioms Verif.Props.C63_lossless
#print axioms Verif.Props.C64_counterexample
#print axioms Verif.Props.C64_host_partial
#print axioms Verif.Props.C65_replay_partial
#print axioms Verif.Props.C65_dangling_crashes
#print axioms Verif.Props.C65_counterexample
#print axioms Verif.Props.C65_negative_flows
#print axioms Verif.Props.C65_makeslice
#print axioms Verif.Props.C65_too_many_flows
#print axioms Verif.Props.C66_resync
#print axioms Verif.Props.C67_rate
#print axioms Verif.Props.C67_no_burst
#print axioms Verif.Props.C68_deadlock
#print axioms Verif.Props.C68_counterexample
#print axioms Verif.Props.C68_returns_partial
#print axioms Verif.Props.C69_hangs
#print axioms Verif.Props.C69_context_partial
#print axioms Verif.Props.C69_counterexample
#print axioms Verif.Props.C69_wakes
#print axioms Verif.Props.C70_stuck
#print axioms Verif.Props.C70_subscribe_blocked
#print axioms Verif.Props.C70_counterexample
#print axioms Verif.Props.C70_room_partial
#print axioms Verif.Props.C70_waits_partial
#print axioms Verif.Props.C71_upload
#print axioms Verif.Props.C72_managers_partial
#print axioms Verif.Props.C72_counterexample
#print axioms Verif.Props.C73_replayed
#print axioms Verif.Props.C74_cleanup
#print axioms Verif.Props.C74_no_pod
#print axioms Verif.Props.C74_outcome
#print axioms Verif.Props.C75_file_partial
#print axioms Verif.Props.C75_error_captured
#print axioms Verif.Props.C75_failed_truncates
#print axioms Verif.Props.C76_verification
#print axioms Verif.Props.C76_unreadable
#print axioms Verif.Props.C76_flags_ignored
#print axioms Verif.Props.C76_default_insecure
#print axioms Verif.Props.C77_external_partial
#print axioms Verif.Props.C77_certificate
#print axioms Verif.Props.C77_counterexample
#print axioms Verif.Props.C78_root_partial
#print axioms Verif.Props.C78_type_partial
#print axioms Verif.Props.C78_not_found
#print axioms Verif.Props.C78_counterexample
#print axioms Verif.Props.C79_limit_partial
#print axioms Verif.Props.C79_unlimited
#print axioms Verif.Props.C79_idle_ends
#print axioms Verif.Props.C79_life
#print axioms Verif.Props.C80_alone_partial
#print axioms Verif.Props.C80_shared_never_ends
#print axioms Verif.Props.C81_sources
#print axioms Verif.Props.C81_served_partial
#print axioms Verif.Props.C81_counterexample
#print axioms Verif.Props.C82_capture_partial
#print axioms Verif.Props.C82_counterexample
#print axioms Verif.Props.C82_time_written
#print axioms Verif.Props.C82_time
#print axioms Verif.Props.C82_time_text
#print axioms Verif.Props.C82_time_read
#print axioms Verif.Props.C82_record
#print axioms Verif.Props.C82_number
#print axioms Verif.Props.C82_wrong_kind
#print axioms Verif.Props.C82_null_field
#print axioms Verif.Props.C82_overwrites
#print axioms Verif.Props.C82_record_unwritable
#print axioms Verif.Props.C82_entry_written
#print axioms Verif.Props.C82_list
#print axioms Verif.Props.C82_bad_body
#print axioms Verif.Props.C82_no_record
#print axioms Verif.Props.C82_null
#print axioms Verif.Props.C83_attempted_partial
#print axioms Verif.Props.C83_content
#print axioms Verif.Props.C83_flushed_partial
#print axioms Verif.Props.C83_progress
#print axioms Verif.Props.C83_gives_up
#print axioms Verif.Props.C83_shutdown
#print axioms Verif.Props.C83_counterexample
#print axioms Verif.Props.C84_handed_partial
#print axioms Verif.Props.C84_written_partial
#print axioms Verif.Props.C84_progress
#print axioms Verif.Props.C84_returns
#print axioms Verif.Props.C84_counterexample
#print axioms Verif.Props.C84_lost_at_end
#print axioms Verif.Props.C85_times
#print axioms Verif.Props.C85_panics_iff
#print axioms Verif.Props.C85_wire
#print axioms Verif.Props.C86_counterexample
#print axioms Verif.Props.C86_lost
#print axioms Verif.Props.C86_received_partial
#print axioms Verif.Props.C87_coalesced
#print axioms Verif.Props.C87_all_served
#print axioms Verif.Props.C87_no_delay
#print axioms Verif.Props.C87_drains
#print axioms Verif.Props.C88_one_upload
#print axioms Verif.Props.C88_settled_partial
#print axioms Verif.Props.C88_status
#print axioms Verif.Props.C88_replays
#print axioms Verif.Props.C88_answer
#print axioms Verif.Props.C88_replays_begin
#print axioms Verif.Props.C88_neg_containers
#print axioms Verif.Props.C89_bad_body
#print axioms Verif.Props.C89_replay_ends
#print axioms Verif.Props.C89_story
#print axioms Verif.Props.C89_rest
#print axioms Verif.Props.C89_answered_partial
#print axioms Verif.Props.C89_slow_client
#print axioms Verif.Props.C89_neg_slow_client
#print axioms Verif.Props.C89_neg_shutdown
#print axioms Verif.Props.C90_count
#print axioms Verif.Props.C90_once
#print axioms Verif.Props.C90_rest
#print axioms Verif.Props.C90_ends_partial
#print axioms Verif.Props.C90_stuck
#print axioms Verif.Props.C90_neg_replaced
#print axioms Verif.Props.C91_reports
#print axioms Verif.Props.C91_success_partial
#print axioms Verif.Props.C91_waits
#print axioms Verif.Props.C91_failure_partial
#print axioms Verif.Props.C91_panic_partial
#print axioms Verif.Props.C91_quiet_partial
#print axioms Verif.Props.C91_false_failure
#print axioms Verif.Props.C91_false_success
#print axioms Verif.Props.C91_panic
#print axioms Verif.Props.C92_container_ends
#print axioms Verif.Props.C92_why
#print axioms Verif.Props.C92_server
#print axioms Verif.Props.C92_bounded
#print axioms Verif.Props.C92_returns
#print axioms Verif.Props.C92_container_partial
#print axioms Verif.Props.C92_grace_partial
#print axioms Verif.Props.C92_no_server
#print axioms Verif.Props.C92_deaf
#print axioms Verif.Props.C92_cut
#print axioms Verif.Props.C92_graceful
#print axioms Verif.Props.C93_only_these
#print axioms Verif.Props.C93_generation_read
#print axioms Verif.Props.C93_no_race_partial
#print axioms Verif.Props.C93_accesses
#print axioms Verif.Props.C93_pairs
#print axioms Verif.Props.C93_attached
#print axioms Verif.Props.C93_replace
#print axioms Verif.Props.C93_registers
#print axioms Verif.Props.C93_capture_end
#print axioms Verif.Props.C93_link_race
#print axioms Verif.Props.C93_backoff_race
#print axioms Verif.Props.C93_cancel_race
#print axioms Verif.Props.C93_source_race
#print axioms Verif.Props.C93_err_race
#print axioms Verif.Props.C93_registry_race
#print axioms Verif.Props.C94_mutex
#print axioms Verif.Props.C94_balanced
#print axioms Verif.Props.C94_no_deadlock
#print axioms Verif.Props.C94_all_released
#print axioms Verif.Props.C95_setup
#print axioms Verif.Props.C95_below
#print axioms Verif.Props.C95_other_partial
#print axioms Verif.Props.C95_listed
#print axioms Verif.Props.C95_slash
#print axioms Verif.Props.C95_answered
#print axioms Verif.Props.C95_unlisted_answered
#print axioms Verif.Props.C95_fixture
#print axioms Verif.Props.C96_live_partial
#print axioms Verif.Props.C96_listeners_partial
#print axioms Verif.Props.C96_forgotten
#print axioms Verif.Props.C96_record
#print axioms Verif.Props.C97_in_time
#print axioms Verif.Props.C97_goes_on
#print axioms Verif.Props.C98_simple_accepts
#print axioms Verif.Props.C98_simple_encode
#print axioms Verif.Props.C98_simple_decode
#print axioms Verif.Props.C98_accepts
#print axioms Verif.Props.C98_coherent_accepted
#print axioms Verif.Props.C98_handed_over
#print axioms Verif.Props.C98_arrives_partial
#print axioms Verif.Props.C98_named_never_arrives
#print axioms Verif.Props.C98_iface_panics
#print axioms Verif.Props.C98_value_receiver
#print axioms Verif.Props.C98_encoder_only
#print axioms Verif.Props.C98_zero
#print axioms Verif.Props.C98_method_answers
#print axioms Verif.Props.C98_panics
#print axioms Verif.Props.C99_way_out
#print axioms Verif.Props.C99_soon
#print axioms Verif.Props.C99_only_then
#print axioms Verif.Props.C99_for_good
#print axioms Verif.Props.C99_sender_way_out
#print axioms Verif.Props.C99_sender_for_good
#print axioms Verif.Props.C100_no_panic
#print axioms Verif.Props.C100_delivered
#print axioms Verif.Props.C100_converges
#print axioms Verif.Props.C101_bounds
#print axioms Verif.Props.C101_waits_iff
#print axioms Verif.Props.C101_gets_through_partial
#print axioms Verif.Props.C101_after_the_end
#print axioms Verif.Props.C101_stopped_counterexample
#print axioms Verif.Props.C102_rest
#print axioms Verif.Props.C102_rest_conv
#print axioms Verif.Props.C102_bounded
#print axioms Verif.Props.C102_arrives
#print axioms Verif.Props.C103_flush_writes_partial
#print axioms Verif.Props.C103_counterexample
#print axioms Verif.Props.C104_before
#print axioms Verif.Props.C104_resync
#print axioms Verif.Props.C104_arrives
#print axioms Verif.Props.C104_exact
#print axioms Verif.Props.C105_honest
#print axioms Verif.Props.C106_forward_partial
#print axioms Verif.Props.C106_counterexample
#print axioms Verif.Props.C106_calm
#print axioms Verif.Props.C106_told_partial
#print axioms Verif.Props.C107_can_end
#print axioms Verif.Props.C107_heard
#print axioms Verif.Props.C107_resync
#print axioms Verif.Props.C107_not_stuck
#print axioms Verif.Props.C108_heard
#print axioms Verif.Props.C108_subscribed_partial
#print axioms Verif.Props.C108_first_partial
#print axioms Verif.Props.C108_counterexample
#print axioms Verif.Props.C109_observed
#print axioms Verif.Props.C109_known
#print axioms Verif.Props.C109_discovered_partial
#print axioms Verif.Props.C109_counterexample
#print axioms Verif.Props.C109_not_stuck
#print axioms Verif.Props.C109_can_return
#print axioms Verif.Props.C110_listeners_partial
#print axioms Verif.Props.C110_containers
#print axioms Verif.Props.C110_container
#print axioms Verif.Props.C110_container_ctx
#print axioms Verif.Props.C110_counterexample
#print axioms Verif.Props.C110_no_panic
#print axioms Verif.Props.C110_late
#print axioms Verif.Props.C110_one_watch
#print axioms Verif.Props.C110_watched
#print axioms Verif.Props.C110_listens
#print axioms Verif.Props.C110_registered
#print axioms Verif.Props.C110_leak
#print axioms Verif.Props.C110_late_example
#print axioms Verif.Props.C110_shutdown
#print axioms Verif.Props.C110_can_release
#print axioms Verif.Props.C110_handler_goes_on
#print axioms Verif.Props.C110_log_example
#print axioms Verif.Props.C111_can_end
#print axioms Verif.Props.C111_can_end_example
#print axioms Verif.Props.C111_discovery
#print axioms Verif.Props.C111_client_partial
#print axioms Verif.Props.C111_flushes_partial
#print axioms Verif.Props.C111_flushes
#print axioms Verif.Props.C111_lasts
#print axioms Verif.Props.C111_ends
#print axioms Verif.Props.C111_stray
#print axioms Verif.Props.C111_flushes_none
#print axioms Verif.Props.C111_counterexample_flushes
#print axioms Verif.Props.C111_counterexample_nil
#print axioms Verif.Props.C111_counterexample_client
#print axioms Verif.Props.C111_instance
#print axioms Verif.Props.C111_stray_example
#print axioms Verif.Props.C112_reads
#print axioms Verif.Props.C112_unique
#print axioms Verif.Props.C112_first
#print axioms Verif.Props.C112_first_sound
#print axioms Verif.Props.C112_written
#print axioms Verif.Props.C112_injective
#print axioms Verif.Props.C112_safe
#print axioms Verif.Props.C112_plain
#print axioms Verif.Props.C112_lines
#print axioms Verif.Props.C112_stream
#print axioms Verif.Props.C112_upload
#print axioms Verif.Props.C112_capture_partial
#print axioms Verif.Props.C112_refused
#print axioms Verif.Props.C112_counterexample
#print axioms Verif.Props.C113_line
#print axioms Verif.Props.C113_output
#print axioms Verif.Props.C113_encodable
#print axioms Verif.Props.C114_honest
#print axioms Verif.Props.C114_resync_partial
#print axioms Verif.Props.C114_counterexample
#print axioms Verif.Props.C115_parse
#print axioms Verif.Props.C115_command
#print axioms Verif.Props.C115_unique
#print axioms Verif.Props.C115_misplaced
#print axioms Verif.Props.C115_exit
#print axioms Verif.Props.C115_used_partial
#print axioms Verif.Props.C115_counterexample
#print axioms Verif.Props.C115_ignored
#print axioms Verif.Props.C115_server_ignored
#print axioms Verif.Props.C115_line_example
#print axioms Verif.Props.C115_run_example
#print axioms Verif.Props.C116_reads
#print axioms Verif.Props.C116_refused
#print axioms Verif.Props.C116_settings_partial
#print axioms Verif.Props.C116_example
#print axioms Verif.Props.C116_example_twice
#print axioms Verif.Props.C116_example_refused
#print axioms Verif.Props.C116_counterexample
#print axioms Verif.Props.C116_empty
#print axioms Verif.Props.C117_lookup
#print axioms Verif.Props.C117_one_line
#print axioms Verif.Props.C117_conventional_partial
#print axioms Verif.Props.C117_ignored
#print axioms Verif.Props.C117_builtin
#print axioms Verif.Props.C117_counterexample
#print axioms Verif.Props.C117_example
#print axioms Verif.Props.C117_example_ignored
#print axioms Verif.Props.C118_read
#print axioms Verif.Props.C118_written
#print axioms Verif.Props.C118_writable
#print axioms Verif.Props.C118_message
#print axioms Verif.Props.C118_direct
#print axioms Verif.Props.C118_records
#print axioms Verif.Props.C118_beacon
#print axioms Verif.Props.C118_heartbeat
#print axioms Verif.Props.C118_flush
#print axioms Verif.Props.C118_string_keys
#print axioms Verif.Props.C118_other_body
#print axioms Verif.Props.C118_types
#print axioms Verif.Props.C118_bad_key
#print axioms Verif.Props.C118_properties
#print axioms Verif.Props.C118_one_value
#print axioms Verif.Props.C118_refused
#print axioms Verif.Props.C118_bad_body
#print axioms Verif.Props.C118_nil_map
#print axioms Verif.Props.C119_costs_all
#print axioms Verif.Props.C119_counterexample
#print axioms Verif.Props.C119_accept_partial
#print axioms Verif.Props.C119_encoded_partial
#print axioms Verif.Props.C119_refused
#print axioms Verif.Props.C120_same_session
#print axioms Verif.Props.C120_instance
#print axioms Verif.Props.C120_overlap
#print axioms Verif.Props.C121_merge_panics
#print axioms Verif.Props.C121_diff_panics
#print axioms Verif.Props.C121_second_panics
#print axioms Verif.Props.C121_update_panics
#print axioms Verif.Props.C121_counterexample
#print axioms Verif.Props.C121_keepable_partial
#print axioms Verif.Props.C121_scalars
#print axioms Verif.Props.C121_equal
#print axioms Verif.Props.C121_published
#print axioms Verif.Props.C121_uncaught
#print axioms Verif.Props.C122_counted
#print axioms Verif.Props.C122_ignored_partial
#print axioms Verif.Props.C122_counterexample
#print axioms Verif.Props.C122_goes_on
#print axioms Verif.Props.C122_sent
#print axioms Verif.Props.C123_refines
#print axioms Verif.Props.C123_settled
#print axioms Verif.Props.C123_later_partial
#print axioms Verif.Props.C123_safe_partial
#print axioms Verif.Props.C123_connections
#print axioms Verif.Props.C123_no_wait_partial
#print axioms Verif.Props.C123_enters_partial
#print axioms Verif.Props.C123_waits
#print axioms Verif.Props.C123_counterexample
#print axioms Verif.Props.C124_fresh
#print axioms Verif.Props.C124_proceeds_partial
#print axioms Verif.Props.C124_blame_partial
#print axioms Verif.Props.C124_one_session
#print axioms Verif.Props.C124_counterexample_stuck
#print axioms Verif.Props.C124_counterexample_blamed
#print axioms Verif.Props.C124_counterexample_together
#print axioms Verif.Props.C124_can_fail
#print axioms Verif.Props.C124_queue
#print axioms Verif.Props.C125_done
#print axioms Verif.Props.C125_panics
#print axioms Verif.Props.C125_counterexample_listen
#print axioms Verif.Props.C125_counterexample_close
#print axioms Verif.Props.C125_apart_partial
#print axioms Verif.Props.C125_wakes
#print axioms Verif.Props.C125_leaves
#print axioms Verif.Props.C125_swap
#print axioms Verif.Props.C126_someone
#print axioms Verif.Props.C126_given_partial
#print axioms Verif.Props.C126_lost
#print axioms Verif.Props.C126_counterexample
#print axioms Verif.Props.C126_kept
#print axioms Verif.Props.C127_listed_partial
#print axioms Verif.Props.C127_complete_partial
#print axioms Verif.Props.C127_half
#print axioms Verif.Props.C127_same_id
#print axioms Verif.Props.C127_mixed
#print axioms Verif.Props.C128_changed
#print axioms Verif.Props.C128_before
#print axioms Verif.Props.C128_relinked
#print axioms Verif.Props.C129_start
#print axioms Verif.Props.C129_flushed_partial
#print axioms Verif.Props.C129_differ
#print axioms Verif.Props.C129_kept
#print axioms Verif.Props.C129_changed
#print axioms Verif.Props.C129_counterexample
