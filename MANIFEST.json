{
 "claims": [
  {
   "property": "C01",
   "status": "proved",
   "theorems": [
    "SilKit.Props.C01_ringbuffer_is_byte_queue",
    "SilKit.Props.C01_ringbuffer_fifo"
   ],
   "note": "Refinement of the ring buffer to a plain byte queue for every capacity > 0 and every operation history."
  },
  {
   "property": "C02",
   "status": "proved",
   "theorems": [
    "SilKit.Props.C02_framing_chunk_independent",
    "SilKit.Props.C02_all_delivered",
    "SilKit.Props.C02_delivered_is_prefix_of_frames"
   ],
   "note": "VAsioPeer receive loop on top of the ring buffer, for every chunking; listener reactions arbitrary in the third theorem."
  },
  {
   "property": "C03",
   "status": "proved",
   "theorems": [
    "SilKit.Props.C03_illegal_length_closes",
    "SilKit.Props.C03_exception_leaves_peer_deaf"
   ],
   "note": "Second theorem is a disagreement witness: an exception in the message callback leaves an open connection without outstanding read."
  },
  {
   "property": "C04",
   "status": "proved",
   "theorems": [
    "SilKit.Props.C04_outgoing_bytes_faithful",
    "SilKit.Props.C04_wire_is_prefix",
    "SilKit.Props.C04_idle_means_written",
    "SilKit.Props.C04_io_progress"
   ],
   "note": "Send queue and partial writes for every schedule."
  },
  {
   "property": "C05",
   "status": "proved",
   "theorems": [
    "SilKit.Props.C05_aggregation_order",
    "SilKit.Props.C05_flush_message_is_a_barrier",
    "SilKit.Props.C05_control_overtakes_user_data",
    "SilKit.Props.C05_timer_can_be_off_while_data_is_held",
    "SilKit.Props.C05_timer_releases_held_data",
    "SilKit.Props.C05_held_data_is_bounded"
   ],
   "note": "The last two are witnesses of limits of the aggregation: control messages overtake user data, and the flush timer can be off while data is held back."
  },
  {
   "property": "C06",
   "status": "partial",
   "theorems": [
    "SilKit.Props.C06_wire_roundtrip",
    "SilKit.Props.C06_unchanged_partial",
    "SilKit.Props.C06_whole_microseconds_unchanged",
    "SilKit.Props.C06_participant_status_unchanged",
    "SilKit.Props.C06_log_message_unchanged",
    "SilKit.Props.C06_time_precision_is_lost",
    "SilKit.Props.C06_framed_message_roundtrip",
    "SilKit.Props.C06_framed_subscription_roundtrip",
    "SilKit.Props.C06_handshake_roundtrip",
    "SilKit.Props.C06_legacy_handshake",
    "SilKit.Props.C06_old_log_message"
   ],
   "note": "Round trip with exact byte consumption for all 55 message types and the handshake messages. 'Unchanged' is false in the code for wall clock times (truncated to microseconds) and unnamed log topics; C06_time_precision_is_lost proves that, C06_wire_roundtrip states exactly what arrives."
  },
  {
   "property": "C07",
   "status": "partial",
   "theorems": [
    "SilKit.Props.C07_decoding_is_memory_safe",
    "SilKit.Props.C07_decoding_has_no_undefined_behaviour",
    "SilKit.Props.C07_handshake_decoding_is_safe",
    "SilKit.Props.C07_frame_headers_safe_partial",
    "SilKit.Props.C07_short_registry_message_reads_out_of_bounds",
    "SilKit.Props.C07_hostile_timestamp_overflows"
   ],
   "note": "All payload decoders are proved safe on every byte string. The frame header decoder is not: a registry message shorter than 14 bytes is read out of bounds (proved witness); proved safe otherwise."
  },
  {
   "property": "C08",
   "status": "proved",
   "theorems": [
    "SilKit.Props.C08_serializer_roundtrip",
    "SilKit.Props.C08_serializer_reusable",
    "SilKit.Props.C08_reading_is_safe",
    "SilKit.Props.C08_oversized_unsigned_value_corrupts_next_field",
    "SilKit.Props.C08_oversized_bit_size_is_undefined_behaviour"
   ],
   "note": "Proved for every sequence of calls with representable values; the two counterexample theorems show that the range condition is needed (found: unsigned bit fields are not masked, byte-multiple bit sizes are not checked against the type width)."
  },
  {
   "property": "C09",
   "status": "proved",
   "theorems": [
    "SilKit.Props.C09_labels_match_iff",
    "SilKit.Props.C09_matching_is_symmetric",
    "SilKit.Props.C09_no_labels",
    "SilKit.Props.C09_repeated_keys_do_not_match"
   ],
   "note": "Characterisation of MatchLabels for all label lists; lists repeating a key are covered by a counterexample."
  },
  {
   "property": "C10",
   "status": "partial",
   "theorems": [
    "SilKit.Props.C10_subscriber_connections_exact_partial",
    "SilKit.Props.C10_registration_exact_partial",
    "SilKit.Props.C10_change_exact_partial",
    "SilKit.Props.C10_registration_reports_only_matches",
    "SilKit.Props.C10_changes_reported_only_to_matches",
    "SilKit.Props.C10_mandatory_labels_indexable",
    "SilKit.Props.C10_optional_label_match_is_missed",
    "SilKit.Props.C10_optional_label_reported_twice",
    "SilKit.Props.C10_rpc_client_with_mandatory_label_misses_existing_server"
   ],
   "note": "No false matches in any history; exact and exactly once for mandatory labels; connections exact unless an optional label key is absent on the other side. The full claim is false: counterexamples proved for optional labels and for RPC clients with mandatory labels."
  },
  {
   "property": "C11",
   "status": "proved",
   "theorems": [
    "SilKit.Props.C11_events_alternate",
    "SilKit.Props.C11_last_event_is_current",
    "SilKit.Props.C11_late_handler_sees_alive_services",
    "SilKit.Props.C11_disconnect_removes_all",
    "SilKit.Props.C11_index_changes_alternate",
    "SilKit.Props.C11_announcements_are_honest",
    "SilKit.Props.C11_names_identify_services",
    "SilKit.Props.C11_slash_in_name_hides_a_service"
   ],
   "note": "For every history of announcements, events, disconnects and registrations; services identified by participant and printed name (unambiguous without slashes, counterexample otherwise). Re-entrant handlers not modelled."
  },
  {
   "property": "C12",
   "status": "proved",
   "theorems": [
    "SilKit.Props.C12_steps_are_contiguous",
    "SilKit.Props.C12_time_strictly_increases",
    "SilKit.Props.C12_negative_duration_reverses_time"
   ],
   "note": "All histories of events of one participant with positive durations. Negative durations are accepted by the API and make time run backwards (counterexample). Strict monotonicity assumes the 64 bit time is not exhausted."
  },
  {
   "property": "C13",
   "status": "partial",
   "theorems": [
    "SilKit.Props.C13_no_participant_overtakes_partial",
    "SilKit.Props.C13_hop_on_overtakes",
    "SilKit.Props.C13_continue_during_async_step"
   ],
   "note": "Proved for every simulation, schedule and delay, except the first step of a participant joining a running simulation, for which the claim is false (counterexample); also false when Continue is called during an uncompleted asynchronous step (counterexample)."
  },
  {
   "property": "C14",
   "status": "partial",
   "theorems": [
    "SilKit.Props.C14_no_deadlock",
    "SilKit.Props.C14_quiet_means_somebody_steps",
    "SilKit.Props.C14_time_grows",
    "SilKit.Props.C14_engaged_never_aborts",
    "SilKit.Props.C14_synchronization_goes_on_forever",
    "SilKit.Props.C14_no_deadlock_partial",
    "SilKit.Props.C14_quiet_means_somebody_steps_partial",
    "SilKit.Props.C14_time_grows_partial",
    "SilKit.Props.C14_never_aborts",
    "SilKit.Props.C14_synchronization_goes_on_forever_partial",
    "SilKit.Props.C14_shortening_aborts"
   ],
   "note": "Any number of participants that join, start, pause, continue and leave at any time, with every schedule, every order of discovery, announcements missed by late joiners, blocking and asynchronous handlers, changing and dynamic durations: nobody held means no deadlock; when everything has been noticed and delivered somebody steps; every time of the 64 bit range is reached by everybody after a bounded amount of synchronization work; the work can always go on. Disagreement, hence partial: a coordinated participant in its first step can abort the simulation, e.g. after another one has shortened its step duration (C14_shortening_aborts); the theorems that nobody aborts therefore assume that everybody coordinated has begun its first step. Not covered: coupling to the wall clock, states in which the whole system is in Error."
  },
  {
   "property": "C15",
   "status": "partial",
   "theorems": [
    "SilKit.Props.C15_data_of_earlier_steps_is_received_partial"
   ],
   "note": "Everything still on its way when a step starts was sent in a step that does not start earlier; order kept, nothing lost or duplicated. Same exclusion of joining steps as C13."
  },
  {
   "property": "C16",
   "status": "proved",
   "theorems": [
    "SilKit.Props.C16_dynamic_step_never_skips",
    "SilKit.Props.C16_dynamic_step_is_as_long_as_possible"
   ],
   "note": "Stated with the announcements, duration and mode computed from the events that happened. Time below 2^63-1 ns."
  },
  {
   "property": "C17",
   "status": "partial",
   "theorems": [
    "SilKit.Props.C17_transitions_follow_graph_partial",
    "SilKit.Props.C17_only_startup_steps_leave_graph",
    "SilKit.Props.C17_state_is_published",
    "SilKit.Props.C17_interrupted_startup_leaves_graph",
    "SilKit.Props.C17_error_during_startup_is_forgotten",
    "SilKit.Props.C17_waits_for_subscriptions_only"
   ],
   "note": "Holds for every history in which no startup step (all replies received, all subscriptions acknowledged) completes after the startup was interrupted; the code violates it otherwise (concrete histories proved). Unconditionally only transitions into the two startup states can leave the graph."
  },
  {
   "property": "C18",
   "status": "partial",
   "theorems": [
    "SilKit.Props.C18_nothing_after_shutdown_partial",
    "SilKit.Props.C18_future_completed_once",
    "SilKit.Props.C18_future_is_completed_partial",
    "SilKit.Props.C18_future_is_last_state",
    "SilKit.Props.C18_interrupted_startup_never_completes"
   ],
   "note": "As C17: proved unless a startup step completes late; in that case the code neither stays in Shutdown nor completes the future (proved). At-most-once completion and its value hold in every history."
  },
  {
   "property": "C19",
   "status": "partial",
   "theorems": [
    "SilKit.Props.C19_handlers_in_order_partial",
    "SilKit.Props.C19_handlers_in_their_state",
    "SilKit.Props.C19_abort_handler_is_told",
    "SilKit.Props.C19_stop_handler_after_running",
    "SilKit.Props.C19_interrupted_startup_repeats_handlers"
   ],
   "note": "Order and at-most-once under the hypothesis of C17 (counterexample proved otherwise); the state in which each handler is called, the argument of the abort handler and 'stop only after running' hold in every history."
  },
  {
   "property": "C20",
   "status": "partial",
   "theorems": [
    "SilKit.Props.C20_reported_state_is_justified",
    "SilKit.Props.C20_reports_are_changes",
    "SilKit.Props.C20_unanimous_state_is_system_state",
    "SilKit.Props.C20_alarm_is_immediate",
    "SilKit.Props.C20_alarm_dominates_partial",
    "SilKit.Props.C20_others_do_not_matter",
    "SilKit.Props.C20_depends_only_on_required_partial",
    "SilKit.Props.C20_monitor_reports_system_state",
    "SilKit.Props.C20_aborting_hides_error",
    "SilKit.Props.C20_shutting_down_hides_error",
    "SilKit.Props.C20_error_before_workflow_is_missed",
    "SilKit.Props.C20_disconnect_of_other_matters",
    "SilKit.Props.C20_state_depends_on_history"
   ],
   "note": "Every reported system state is justified by the required participants' states; unanimity, immediacy of Error/Aborting and (weakened) dominance are proved for all histories. The literal claim is false of the code: Aborting or ShuttingDown can hide Error, a late workflow configuration misses an Error, and the disconnect of a participant that is not required can change the system state; each is proved with a witness."
  },
  {
   "property": "C21",
   "status": "partial",
   "theorems": [
    "SilKit.Props.C21_crash_is_reported_as_error",
    "SilKit.Props.C21_crash_drives_system_to_error_partial",
    "SilKit.Props.C21_clean_exit_is_not_an_error",
    "SilKit.Props.C21_crash_in_error_goes_unnoticed",
    "SilKit.Props.C21_presence_is_reported"
   ],
   "note": "Reported as Error before the disconnect for every participant whose state was received and is not Shutdown; a required participant not already in Error drives the system state to Error. Missing: participants that never published a state (no lifecycle) are not reported as Error; one that crashes while already in Error need not drive the system state (witness proved)."
  },
  {
   "property": "C22",
   "status": "partial",
   "theorems": [
    "SilKit.Props.C22_completed_once",
    "SilKit.Props.C22_one_at_a_time",
    "SilKit.Props.C22_all_have_processed",
    "SilKit.Props.C22_barrier_completes",
    "SilKit.Props.C22_second_request_is_dropped"
   ],
   "note": "Proved for every started barrier on a network of any number of participants with FIFO channels: completed exactly once, after all participants connected at the start processed all earlier messages or disconnected, and not pending once the network is quiet. The code drops a request made while another barrier is pending (witness proved), so 'exactly once' fails for such requests."
  },
  {
   "property": "C23",
   "status": "partial",
   "theorems": [
    "SilKit.Props.C23_returns_after_all_acknowledges_partial",
    "SilKit.Props.C23_returns_once_partial",
    "SilKit.Props.C23_returns_eventually_partial",
    "SilKit.Props.C23_no_exception_partial",
    "SilKit.Props.C23_async_handlers_partial",
    "SilKit.Props.C23_concurrent_call_returns_early",
    "SilKit.Props.C23_concurrent_call_fails",
    "SilKit.Props.C23_concurrent_call_completes_twice",
    "SilKit.Props.C23_does_not_wait_for_shared_receiver",
    "SilKit.Props.C23_async_handler_called_early"
   ],
   "note": "Proved for services registered by one thread at a time; with concurrent registrations the code violates the property (witnesses). Asynchronous registrations: handlers that wait are called only when everything sent is settled."
  },
  {
   "property": "C24",
   "status": "partial",
   "theorems": [
    "SilKit.Props.C24_unique_names",
    "SilKit.Props.C24_told_of_all_present_partial",
    "SilKit.Props.C24_admission_tells_partial",
    "SilKit.Props.C24_later_is_told_of_earlier_partial",
    "SilKit.Props.C24_admission_decision_partial",
    "SilKit.Props.C24_all_gone_means_empty_partial",
    "SilKit.Props.C24_last_one_leaves_partial",
    "SilKit.Props.C24_no_dangling_connection_partial",
    "SilKit.Props.C24_second_announcement_is_undefined_behaviour"
   ],
   "note": "Uniqueness is proved for all histories; the rest for connections that announce one participant only. A connection announcing two participants leaves a dangling pointer (proved)."
  },
  {
   "property": "C25",
   "status": "partial",
   "theorems": [
    "SilKit.Props.C25_participant_is_reachable_partial",
    "SilKit.Props.C25_rejected_duplicate_makes_unreachable",
    "SilKit.Props.C25_rejected_duplicate_is_reported_gone"
   ],
   "note": "The code violates the property: the disconnect of a rejected duplicate removes the table entry of the admitted participant (proved). Reachability is proved for all histories in which no such duplicate has disconnected."
  },
  {
   "property": "C26",
   "status": "proved",
   "theorems": [
    "SilKit.Props.C26_success_means_all_replied",
    "SilKit.Props.C26_failure_means_one_given_up",
    "SilKit.Props.C26_reported_at_most_once",
    "SilKit.Props.C26_threads_agree",
    "SilKit.Props.C26_success_is_reported",
    "SilKit.Props.C26_failure_is_reported",
    "SilKit.Props.C26_both_threads_report",
    "SilKit.Props.C26_silent_remote_is_not_noticed",
    "SilKit.Props.C26_user_is_woken_once"
   ],
   "note": "All interleavings of the user's thread and the I/O thread at every shared access. The report is delivered once, only after all replies (or after some participant was given up), and it is delivered whenever the two threads have nothing left to do. C26_silent_remote_is_not_noticed: a remote that announces to connect and then stays silent makes joining hang."
  },
  {
   "property": "C27",
   "status": "partial",
   "theorems": [
    "SilKit.Props.C27_late_subscriber_receives_last_value_then_all_partial",
    "SilKit.Props.C27_data_messages_are_named_uniquely",
    "SilKit.Props.C27_subscription_is_accepted",
    "SilKit.Props.C27_accepted_once",
    "SilKit.Props.C27_further_subscriber_receives_the_rest_partial",
    "SilKit.Props.C27_local_subscriber_receives_later_values_partial",
    "SilKit.Props.C27_second_subscriber_gets_no_history",
    "SilKit.Props.C27_local_subscriber_gets_no_history"
   ],
   "note": "Proved for the first subscriber of a participant on a link, for every kind of message with a unique name: the last value before the acceptance and then all later values, in order, none skipped or repeated; acceptance happens once and does happen. Further subscribers of the same participant get no history (C27_second_subscriber_gets_no_history), nor do subscribers in the publisher's own participant; for these the exact later values are proved. The code therefore does not satisfy the full statement. Messages to a single target are C74."
  },
  {
   "property": "C28",
   "status": "proved",
   "theorems": [
    "SilKit.Props.C28_sends_exactly_while_started",
    "SilKit.Props.C28_sender_sees_and_is_acknowledged_once",
    "SilKit.Props.C28_other_participants_receive_once",
    "SilKit.Props.C28_subscription_is_accepted",
    "SilKit.Props.C28_own_participant_receives_once",
    "SilKit.Props.C28_only_transmitted_frames_are_taken"
   ],
   "note": "Every history of any number of participants and controllers. A controller of another participant counts as being on the network once the sender's participant has accepted its subscription; C28_subscription_is_accepted says when that is the case. An API call is one step of the model."
  },
  {
   "property": "C29",
   "status": "proved",
   "theorems": [
    "SilKit.Props.C29_handler_sees_exactly_what_it_asked_for",
    "SilKit.Props.C29_removed_handler_is_not_called",
    "SilKit.Props.C29_only_added_handlers_are_called",
    "SilKit.Props.C29_handlers_are_added_once",
    "SilKit.Props.C29_context_is_visible_on_transmitted_frames_only",
    "SilKit.Props.C29_context_is_the_controllers_own",
    "SilKit.Props.C29_simulated_controller_listens_to_the_simulation_only",
    "SilKit.Props.C29_simulated_controller_obeys_the_simulation",
    "SilKit.Props.C29_controller_without_simulation_takes_all_frames"
   ],
   "note": "Every sequence of calls and received frames, with and without network simulation. Handlers do not call back into the controller (see C36 for that)."
  },
  {
   "property": "C30",
   "status": "proved",
   "theorems": [
    "SilKit.Props.C30_sends_exactly_while_active",
    "SilKit.Props.C30_sender_is_acknowledged_once",
    "SilKit.Props.C30_one_acknowledge_per_frame",
    "SilKit.Props.C30_other_participants_receive_once",
    "SilKit.Props.C30_subscription_is_accepted",
    "SilKit.Props.C30_own_participant_receives_once",
    "SilKit.Props.C30_only_transmitted_frames_are_taken",
    "SilKit.Props.C30_handlers_see_padded_frames"
   ],
   "note": "Any number of participants and controllers on the message links of C27. Requests and activity are given by the API calls alone. Delivery is complete once the connection is drained; padding is stated for what handlers are called with, at sender and receivers."
  },
  {
   "property": "C31",
   "status": "partial",
   "theorems": [
    "SilKit.Props.C31_frame_of_the_single_responder_is_delivered_partial",
    "SilKit.Props.C31_frame_without_responder_is_not_delivered_partial",
    "SilKit.Props.C31_frame_with_several_responders_is_an_error_partial",
    "SilKit.Props.C31_received_iff_exactly_one_responds_partial",
    "SilKit.Props.C31_unannounced_response_is_reported",
    "SilKit.Props.C31_counterexample_sleeping_slave_responds",
    "SilKit.Props.C31_counterexample_departed_slave_is_counted",
    "SilKit.Props.C31_counterexample_late_master_misses_updates",
    "SilKit.Props.C31_counterexample_no_response_reported_as_error",
    "SilKit.Props.C31_counterexample_unknown_length"
   ],
   "note": "Any number of nodes, any histories of calls and any order of deliveries before and after the request. Assumed: subscriptions are known before the first call, nobody leaves, one master, no dynamic responses (those are C78), responding slaves do not sleep, messages are delivered before the request. The counterexamples show that the property fails without the assumptions on sleeping, leaving and late joining, for responses of unknown length, and that receivers report an error instead of a missing response if they expect a known length."
  },
  {
   "property": "C32",
   "status": "partial",
   "theorems": [
    "SilKit.Props.C32_forbidden_call_is_rejected_partial",
    "SilKit.Props.C32_forbidden_call_leaves_the_network_partial",
    "SilKit.Props.C32_allowed_call_is_not_rejected",
    "SilKit.Props.C32_no_undefined_behaviour_with_lin_identifiers",
    "SilKit.Props.C32_sleeping_master_sends_no_frame",
    "SilKit.Props.C32_counterexample_dynamic_response_not_rejected",
    "SilKit.Props.C32_counterexample_sleeping_sendFrame_not_rejected",
    "SilKit.Props.C32_counterexample_sleeping_sendFrameHeader_not_rejected",
    "SilKit.Props.C32_counterexample_large_identifiers"
   ],
   "note": "Not initialised, wrong node type, second initialisation, and unconfigured identifiers: rejected without effect on controller and network, exactly then. Missing because the code does not reject: calls while asleep, SendDynamicResponse at a controller that is not dynamic, identifiers above 63 (undefined behaviour)."
  },
  {
   "property": "C33",
   "status": "partial",
   "theorems": [
    "SilKit.Props.C33_configure_accepts_exactly_the_ranges_partial",
    "SilKit.Props.C33_documented_ranges_are_accepted",
    "SilKit.Props.C33_buffer_update_is_sent_exactly_for_configured_buffers",
    "SilKit.Props.C33_reconfiguration_is_sent_exactly_for_configured_buffers",
    "SilKit.Props.C33_messages_go_to_the_simulation",
    "SilKit.Props.C33_counterexample_unchecked_parameters",
    "SilKit.Props.C33_counterexample_configuration_before_simulation_is_lost"
   ],
   "note": "Proved for all parameters that the code checks, and all buffer indices in every history. Four node parameters with documented ranges are not checked by the code (counterexample), so the statement for every parameter is false."
  },
  {
   "property": "C34",
   "status": "partial",
   "theorems": [
    "SilKit.Props.rpc_not_reachable",
    "SilKit.Props.rpc_results_partial",
    "SilKit.Props.rpc_timeout_partial",
    "SilKit.Props.rpc_sent",
    "SilKit.Props.rpc_results_belong",
    "SilKit.Props.rpc_no_ub",
    "SilKit.Props.rpc_results_timeless",
    "SilKit.Props.rpc_timeout_after_results",
    "SilKit.Props.rpc_unsynchronized_two_results",
    "SilKit.Props.rpc_departed",
    "SilKit.Props.rpc_all_servers_partial",
    "SilKit.Props.rpc_all_servers_timeless",
    "SilKit.Props.rpc_no_servers_no_messages",
    "SilKit.Props.rpc_called_data",
    "SilKit.Props.rpc_called_once",
    "SilKit.Props.rpc_success_data",
    "SilKit.Props.rpc_submit",
    "SilKit.Props.rpc_submit_before_enrolled",
    "SilKit.Props.rpc_handler_missed",
    "SilKit.Props.rpc_submit_twice"
   ],
   "note": "Proved for clients whose messages and steps are handled one after the other (synchronized participants), any number of calls, clients and servers. The property itself is false of the code: a timeout that passes after the call was answered is undefined behaviour (rpc_timeout_after_results), and a server that leaves before answering leaves the call open (rpc_departed); without synchronization a call can get two results of one server (rpc_unsynchronized_two_results)."
  },
  {
   "property": "C35",
   "status": "partial",
   "theorems": [
    "SilKit.Props.watchdog_at_most_once",
    "SilKit.Props.watchdog_exact_partial",
    "SilKit.Props.watchdog_looks",
    "SilKit.Props.watchdog_reported",
    "SilKit.Props.watchdog_sees",
    "SilKit.Props.watchdog_timeout_partial",
    "SilKit.Props.watchdog_warning_partial",
    "SilKit.Props.watchdog_in_time_partial",
    "SilKit.Props.watchdog_configure",
    "SilKit.Props.watchdog_late_clock",
    "SilKit.Props.watchdog_second_step_unreported",
    "SilKit.Props.watchdog_second_warning_unreported",
    "SilKit.Props.watchdog_no_warning_before_timeout",
    "SilKit.Props.watchdog_unseen"
   ],
   "note": "Proved for every schedule of the simulation thread and the watchdog thread: at most one warning and one timeout per step, exactly one when the watchdog sees the excess and has seen something in order before, nothing for a step that ends in time if the clock is read at once after the start time was loaded. Missing because the code does not do it: reports for a second late step when nothing in order is seen between the two, a warning before the timeout when the first look is after the hard timeout, and a delayed clock read can report a step that ended in time (counterexamples proved)."
  },
  {
   "property": "C36",
   "status": "partial",
   "theorems": [
    "SilKit.Props.C36_identifiers_are_unique",
    "SilKit.Props.C36_only_registered_handlers_are_called",
    "SilKit.Props.C36_removed_handler_is_not_called",
    "SilKit.Props.C36_called_in_order_at_most_once",
    "SilKit.Props.C36_all_registered_handlers_are_called_partial",
    "SilKit.Props.C36_calls_follow_the_begin",
    "SilKit.Props.C36_no_undefined_behaviour_partial",
    "SilKit.Props.C36_plain_invocation",
    "SilKit.Props.C36_self_removal_is_undefined_behaviour",
    "SilKit.Props.C36_handlers_added_meanwhile_are_called_too"
   ],
   "note": "All of the statement is proved for invocations that come to an end; the code has undefined behaviour if a handler removes itself while being invoked (C36_self_removal_is_undefined_behaviour), and an invocation need not end if handlers keep adding handlers. Identifiers are unique for up to 2^64 additions."
  },
  {
   "property": "C37",
   "status": "proved",
   "theorems": [
    "SilKit.Props.uri_make",
    "SilKit.Props.uri_make_iff",
    "SilKit.Props.uri_make_unnamed",
    "SilKit.Props.uri_accepted",
    "SilKit.Props.uri_grammar",
    "SilKit.Props.uri_local",
    "SilKit.Props.uri_remake",
    "SilKit.Props.uri_odd_ports"
   ],
   "note": "All strings. uri_grammar characterises exactly what is accepted and with which result; hosts may contain colons but no slash. Noted: the port is read by a stream, so that a sign and text after the digits are accepted."
  },
  {
   "property": "C38",
   "status": "partial",
   "theorems": [
    "SilKit.Props.C38_received_values_were_published",
    "SilKit.Props.C38_decoded_as_sent_partial",
    "SilKit.Props.C38_lin_and_flexray_networks_of_one_name_are_mixed_up",
    "SilKit.Props.C38_second_of_two_mixed_up_links_is_deaf"
   ],
   "note": "Provenance is proved for all kinds of messages. Decoding as another kind is proved impossible except between LIN and FlexRay controller configurations, which share a name on the wire; the two witnesses show that the code mixes them up on equally named networks."
  },
  {
   "property": "C39",
   "status": "proved",
   "theorems": [
    "SilKit.Props.C39_ethernet_handler_sees_exactly_what_it_asked_for",
    "SilKit.Props.C39_ethernet_removed_handler_is_not_called",
    "SilKit.Props.C39_ethernet_handlers_are_distinct",
    "SilKit.Props.C39_ethernet_controllers_on_networks",
    "SilKit.Props.C39_lin_handler_sees_exactly_what_it_asked_for",
    "SilKit.Props.C39_lin_removed_handler_is_not_called",
    "SilKit.Props.C39_lin_handlers_are_distinct",
    "SilKit.Props.C39_lin_controllers_on_networks",
    "SilKit.Props.C39_lin_transmission_is_reported",
    "SilKit.Props.C39_lin_wakeup_is_reported",
    "SilKit.Props.C39_lin_slave_configuration_is_announced",
    "SilKit.Props.C39_lin_first_slave_configuration_handler_is_told_at_once",
    "SilKit.Props.C39_flexray_reports_exactly_the_events_of_the_simulation",
    "SilKit.Props.C39_flexray_handler_sees_exactly_what_it_asked_for",
    "SilKit.Props.C39_flexray_removed_handler_is_not_called",
    "SilKit.Props.C39_flexray_handlers_are_distinct"
   ],
   "note": "For every history of a controller of each of the three types. Handlers do not call back into the controller; re-entrant handlers are the subject of C36. Identifiers are natural numbers here; C36 has the 64-bit ones."
  },
  {
   "property": "C40",
   "status": "partial",
   "theorems": [
    "SilKit.Props.connect_tries_in_order_partial",
    "SilKit.Props.connect_ends_once_partial",
    "SilKit.Props.connect_success_partial",
    "SilKit.Props.connect_failure_partial",
    "SilKit.Props.connect_reports_partial",
    "SilKit.Props.connect_terminates_partial",
    "SilKit.Props.connect_goes_on_partial",
    "SilKit.Props.connect_failure_at_once_is_reported_twice",
    "SilKit.Props.connect_order",
    "SilKit.Props.connect_other_uri",
    "SilKit.Props.connect_tcp_uri",
    "SilKit.Props.connect_uris_given"
   ],
   "note": "Proved for connectors that report after AsyncConnect has returned; a connector that fails before it returns makes the failure be reported twice, which is proved as a counterexample. Name resolution is a parameter."
  },
  {
   "property": "C41",
   "status": "proved",
   "theorems": [
    "SilKit.Props.acceptors_told_iff",
    "SilKit.Props.acceptors_told",
    "SilKit.Props.acceptors_others_unchanged",
    "SilKit.Props.acceptors_catchall_reachable",
    "SilKit.Props.acceptors_no_catchall",
    "SilKit.Props.acceptors_no_duplicates",
    "SilKit.Props.acceptors_order"
   ],
   "note": "The classification of addresses (asio::ip::make_address) is a parameter. That no catch-all address is told needs that the two connections and the loopback addresses are not catch-all ones."
  },
  {
   "property": "C42",
   "status": "partial",
   "theorems": [
    "SilKit.Props.C42_handlers_behave_as_one_container_partial",
    "SilKit.Props.C42_the_given_handler_is_called_partial",
    "SilKit.Props.C42_removed_handlers_are_not_called_partial",
    "SilKit.Props.C42_every_handler_is_called_partial",
    "SilKit.Props.C42_no_undefined_behaviour_partial",
    "SilKit.Props.C42_the_handler_set_last_is_called_partial",
    "SilKit.Props.C42_dueAt",
    "SilKit.Props.C42_removing_a_slave_configuration_handler_frees_a_wakeup_handler",
    "SilKit.Props.C42_setting_the_handler_of_a_server_is_undefined_behaviour"
   ],
   "note": "All histories except those that remove a LIN slave configuration handler or call SetCallHandler of an RPC server: the code violates the claim there, which is proved."
  },
  {
   "property": "C43",
   "status": "partial",
   "theorems": [
    "SilKit.Props.C43_events_arrive_as_they_are_partial",
    "SilKit.Props.C43_queried_status_is_exact",
    "SilKit.Props.C43_calls_arrive_as_they_are_partial",
    "SilKit.Props.C43_updates_without_payload",
    "SilKit.Props.C43_exceptions_keep_class_and_text",
    "SilKit.Props.C43_foreign_exceptions",
    "SilKit.Props.C43_structure_identifiers",
    "SilKit.Props.C43_structures_have_their_own_identifiers",
    "SilKit.Props.C43_events_carry_their_identifiers_partial",
    "SilKit.Props.C43_slave_configuration",
    "SilKit.Props.C43_status_events_lose_the_refresh_time",
    "SilKit.Props.C43_an_empty_payload_is_refused",
    "SilKit.Props.C43_wrong_headers",
    "SilKit.Props.C43_old_node_parameters_read_uninitialised_memory",
    "SilKit.Props.C43_unknown_exceptions_show_an_old_text"
   ],
   "note": "Holds for all events and calls except those where the code violates the claim, which is proved: refresh time of status events, empty FlexRay payloads, three structure headers, old FlexRay node parameters."
  },
  {
   "property": "C44",
   "status": "partial",
   "theorems": [
    "SilKit.Props.pcap_roundtrip",
    "SilKit.Props.pcap_roundtrip_whole",
    "SilKit.Props.pcap_pipe_like_file",
    "SilKit.Props.pcap_trace_throws_iff",
    "SilKit.Props.pcap_concurrent_traces_mix",
    "SilKit.Props.pcap_open_iff",
    "SilKit.Props.C44_wrong_version_is_accepted",
    "SilKit.Props.C44_other_programs_show_other_times",
    "SilKit.Props.C44_microsecond_files_are_refused",
    "SilKit.Props.C44_closed_recording_is_not_changed"
   ],
   "note": "Round trip for all frames and every cut of the file is proved. The code deviates: tracing empty frames throws, traces of two threads mix, wrong versions are accepted, other programs see other times."
  },
  {
   "property": "C45",
   "status": "partial",
   "theorems": [
    "SilKit.Props.replay_active_iff",
    "SilKit.Props.replay_sends",
    "SilKit.Props.replay_deliveries",
    "SilKit.Props.replay_inactive_sends",
    "SilKit.Props.replay_inactive_deliveries",
    "SilKit.Props.replay_step",
    "SilKit.Props.replay_first_step",
    "SilKit.Props.replay_schedule",
    "SilKit.Props.C45_sends_nothing_without_source",
    "SilKit.Props.C45_blocked_without_replay",
    "SilKit.Props.C45_creation_throws_for_missing_source_only"
   ],
   "note": "Proved with a synchronized virtual time for Ethernet, CAN, publishers and subscribers if the trace source exists; without it the code blocks sending and replays nothing (counterexample). LIN is C76, the choice of the channel C77. Without a synchronized virtual time the code replays nothing (ReplayScheduler.cpp:406-410); this is not modelled."
  },
  {
   "property": "C46",
   "status": "partial",
   "theorems": [
    "SilKit.Props.record_replay",
    "SilKit.Props.C46_replayed_too_early",
    "SilKit.Props.C46_replayed_too_late",
    "SilKit.Props.C46_received_frames_are_sent",
    "SilKit.Props.C46_nothing_is_received_from_pcap"
   ],
   "note": "Proved for recordings without received frames, steps at multiples of 1 µs and a first step at 0; the code deviates otherwise (counterexamples)."
  },
  {
   "property": "C47",
   "status": "partial",
   "theorems": [
    "SilKit.Props.C47_each_file_is_read_once_partial",
    "SilKit.Props.C47_files_are_found",
    "SilKit.Props.C47_includes_terminate",
    "SilKit.Props.C47_configuration_of_files",
    "SilKit.Props.C47_files_beside_the_root_are_not_found",
    "SilKit.Props.C47_deep_includes_are_ignored",
    "SilKit.Props.C47_root_is_included_again",
    "SilKit.Props.C47_other_name_is_read_again"
   ],
   "note": "Each file is read once by name and exactly the files within 127 includes are read, for all graphs and file systems. The code violates the rest: files beside the root are not found, deeper files are ignored, the root and other names of a file are read again."
  },
  {
   "property": "C48",
   "status": "partial",
   "theorems": [
    "SilKit.Props.C48_merge_rules_partial",
    "SilKit.Props.C48_duplicates_match_partial",
    "SilKit.Props.C48_single_file_partial",
    "SilKit.Props.C48_different_services_are_dropped",
    "SilKit.Props.C48_transmit_buffers_are_dropped",
    "SilKit.Props.C48_timeouts_are_redefined",
    "SilKit.Props.C48_written_defaults_are_overridden",
    "SilKit.Props.C48_metrics_options_are_lost",
    "SilKit.Props.C48_middleware_is_defined_twice",
    "SilKit.Props.C48_versions_of_includes_are_not_checked"
   ],
   "note": "The merge is characterised for all files (accepted iff Mergeable, result Merged). It deviates from the documented rules in six ways, each proved."
  },
  {
   "property": "C49",
   "status": "partial",
   "theorems": [
    "SilKit.Props.proxy_received_is_prefix_of_sent",
    "SilKit.Props.proxy_everything_arrives",
    "SilKit.Props.proxy_told_that_left_partial",
    "SilKit.Props.proxy_told_by_who_knew_partial",
    "SilKit.Props.proxy_events_are_named",
    "SilKit.Props.proxy_registry_lost_partial",
    "SilKit.Props.proxy_ub_iff_registry_lost_after_left",
    "SilKit.Props.proxy_registry_lost_ub_example",
    "SilKit.Props.proxy_never_told_example"
   ],
   "note": "Order, completeness, names and the single report are proved for all histories. Two parts are violated by the code: the loss of the registry after somebody left is a use after free (characterised exactly), and who initiated the connection is not told when the other one leaves before it answered."
  },
  {
   "property": "C50",
   "status": "partial",
   "theorems": [
    "SilKit.Props.C50_never_early",
    "SilKit.Props.C50_steps_at_most_early",
    "SilKit.Props.C50_announced_at_most_a_step_early_partial",
    "SilKit.Props.C50_prompt_participant_keeps_up",
    "SilKit.Props.C50_never_less_behind",
    "SilKit.Props.C50_late_once_late_for_ever",
    "SilKit.Props.C50_announced_early_to_newcomer",
    "SilKit.Props.C50_announced_while_executing",
    "SilKit.Props.C50_changed_duration_starts_early"
   ],
   "note": "Proved for every history: with a constant step duration no step starts early; with durations in a range early by at most the width of the range; a prompt participant starts step i exactly in period i, for any number of steps. Not true of the code, with counterexamples: a late participant never catches up (for all k and n), steps are announced early to a newcomer and while the step before is executing, and changed durations can start a step early."
  },
  {
   "property": "C51",
   "status": "partial",
   "theorems": [
    "SilKit.Props.NetSim.offered_are_the_existing",
    "SilKit.Props.NetSim.offered_unique",
    "SilKit.Props.NetSim.descriptors_increase",
    "SilKit.Props.NetSim.removed_was_offered",
    "SilKit.Props.NetSim.requests_reach_the_user",
    "SilKit.Props.NetSim.produced_reach_the_receivers",
    "SilKit.Props.NetSim.only_the_receiver_takes",
    "SilKit.Props.NetSim.producer_once",
    "SilKit.Props.NetSim.producer_before_controllers_partial",
    "SilKit.Props.NetSim.producer_missing_for_same_name",
    "SilKit.Props.NetSim.no_undefined_behaviour",
    "SilKit.Props.NetSim.duplicate_network_is_undefined",
    "SilKit.Props.NetSim.failed_start_is_final",
    "SilKit.Props.NetSim.detailed_while_simulated_partial",
    "SilKit.Props.NetSim.detached_by_another_type",
    "SilKit.Props.NetSim.second_simulator_ends_first",
    "SilKit.Props.NetSim.status_notices_partial",
    "SilKit.Props.NetSim.state_of_another_controller",
    "SilKit.Props.C51_ethernet_controller_follows_its_simulator",
    "SilKit.Props.NetSim.errors_have_a_cause"
   ],
   "note": "Offered controllers, descriptors and routing in both directions are proved for all orderly histories. The order of event producer and controllers, the choice of the simulator and the status events are proved under restrictions, because the code violates them otherwise (six counterexamples)."
  },
  {
   "property": "C52",
   "status": "partial",
   "theorems": [
    "SilKit.Props.c52_nobody_runs_too_early",
    "SilKit.Props.c52_communication_ready_not_too_early",
    "SilKit.Props.c52_initializing_not_too_early",
    "SilKit.Props.c52_reported_in_order",
    "SilKit.Props.c52_start_completes_partial",
    "SilKit.Props.c52_start_undisturbed_partial",
    "SilKit.Props.c52_late_workflow_stuck"
   ],
   "note": "Safety is proved for all histories of all participants. Completion is proved for all histories in which every required participant has received the workflow configuration before its lifecycle starts; without this the code gets stuck (c52_late_workflow_stuck). Required participants with an autonomous lifecycle are not covered by the completion theorem."
  },
  {
   "property": "C53",
   "status": "partial",
   "theorems": [
    "SilKit.Props.configuration_can_be_written",
    "SilKit.Props.configuration_is_read_as_written_partial",
    "SilKit.Props.configuration_survives_iff",
    "SilKit.Props.lossless_configurations_differ_in_text",
    "SilKit.Props.second_round_trip_loses_nothing",
    "SilKit.Props.written_configuration_cannot_be_read_iff",
    "SilKit.Props.registry_configuration_is_read_as_written_partial",
    "SilKit.Props.registry_with_metrics_cannot_be_written",
    "SilKit.Props.sink_topics_are_lost",
    "SilKit.Props.sink_format_is_lost",
    "SilKit.Props.update_interval_is_lost",
    "SilKit.Props.replay_without_source_is_lost",
    "SilKit.Props.version_is_added",
    "SilKit.Props.flexray_parameter_wraps",
    "SilKit.Props.optional_parameter_is_checked"
   ],
   "note": "The claim is false of the code for the settings listed in kept; the surviving configurations are characterised exactly (configuration_survives_iff). The YAML library is trusted to emit and parse the same tree."
  },
  {
   "property": "C54",
   "status": "partial",
   "theorems": [
    "SilKit.Props.ConfigSchema.accepted_iff_well_formed",
    "SilKit.Props.ConfigSchema.written_configuration_is_accepted_silently",
    "SilKit.Props.ConfigSchema.unknown_elements_have_no_effect",
    "SilKit.Props.ConfigSchema.valid_document_is_its_known_part",
    "SilKit.Props.ConfigSchema.unknown_elements_are_reported",
    "SilKit.Props.ConfigSchema.ignored_elements_are_unknown",
    "SilKit.Props.ConfigSchema.list_below_unknown_element_is_rejected",
    "SilKit.Props.ConfigSchema.reserved_name_below_unknown_element_is_rejected",
    "SilKit.Props.ConfigSchema.key_with_separator_is_silently_without_effect",
    "SilKit.Props.ConfigSchema.empty_key_is_silently_without_effect",
    "SilKit.Props.ConfigSchema.empty_key_at_the_root_is_rejected",
    "SilKit.Props.ConfigSchema.duplicate_message_names_the_wrong_path",
    "SilKit.Props.ConfigSchema.accepted_document_may_be_unreadable"
   ],
   "note": "Acceptance is characterised for every document, every written configuration is accepted silently, and elements that are not in the schema by the text of their path are reported and without effect. Partial because the code violates the rest: keys that contain the separator and empty keys are neither known nor reported, unknown elements with lists of scalars or with reserved names below them are rejected instead of ignored, and the message about duplicate keys names the wrong path."
  },
  {
   "property": "C55",
   "status": "partial",
   "theorems": [
    "SilKit.Props.RawStream.requests_and_completions_take_turns_partial",
    "SilKit.Props.RawStream.request_is_not_lost",
    "SilKit.Props.RawStream.second_request_is_refused",
    "SilKit.Props.RawStream.second_write_is_refused",
    "SilKit.Props.RawStream.second_request_is_accepted_before_the_report",
    "SilKit.Props.RawStream.listener_gets_what_was_sent",
    "SilKit.Props.RawStream.nothing_received_is_lost",
    "SilKit.Props.RawStream.written_is_handed_over",
    "SilKit.Props.RawStream.end_is_reported_once_and_last",
    "SilKit.Props.RawStream.end_has_a_reason",
    "SilKit.Props.RawStream.end_is_reported_when_idle",
    "SilKit.Props.RawStream.end_is_reported_after_one_round",
    "SilKit.Props.RawStream.end_is_reported_after_a_failure",
    "SilKit.Props.RawStream.end_is_reported_after_a_failed_write",
    "SilKit.Props.RawStream.nothing_is_left_after_the_end",
    "SilKit.Props.RawStream.completions_do_not_throw",
    "SilKit.Props.RawStream.nothing_is_delivered_after_shutdown",
    "SilKit.Props.RawStream.failed_write_discards_received_data"
   ],
   "note": "Everything is proved for all interleavings, except that requests and completions take turns only for users that wait for the report of a completion before the next request of its kind: a request in the time between completion and report is accepted (proved)."
  },
  {
   "property": "C56",
   "status": "partial",
   "theorems": [
    "SilKit.Props.C56_only_matching_publishers_are_heard",
    "SilKit.Props.C56_handled_in_order_without_gaps",
    "SilKit.Props.C56_handled_up_to_the_end",
    "SilKit.Props.C56_matching_subscriber_handles_all_later_values_partial",
    "SilKit.Props.C56_local_subscriber_handles_all_later_values_partial",
    "SilKit.Props.C56_late_joiner_handles_last_value_then_all",
    "SilKit.Props.C56_local_late_joiner_misses_the_last_value",
    "SilKit.Props.C56_matching_subscriber_may_hear_nothing"
   ],
   "note": "Composition of discovery and links for all histories. Missing: pairs with optional labels that discovery overlooks (counterexample proved), and the last value for late subscribers in the publisher's own participant (counterexample proved)."
  },
  {
   "property": "C57",
   "status": "partial",
   "theorems": [
    "SilKit.Props.C57_own_messages",
    "SilKit.Props.C57_sink_contents",
    "SilKit.Props.C57_remote_messages",
    "SilKit.Props.C57_remote_complete",
    "SilKit.Props.C57_received_not_forwarded",
    "SilKit.Props.C57_calls_succeed",
    "SilKit.Props.C57_log_level",
    "SilKit.Props.C57_simple_line",
    "SilKit.Props.C57_simple_line_injective",
    "SilKit.Props.C57_files_differ",
    "SilKit.Props.C57_received_ignore_topics",
    "SilKit.Props.C57_off_is_written",
    "SilKit.Props.C57_unknown_level_throws",
    "SilKit.Props.C57_own_messages_twice",
    "SilKit.Props.C57_topic_doubled",
    "SilKit.Props.C57_early_messages_lost",
    "SilKit.Props.C57_registry_logger_rejected",
    "SilKit.Props.C57_files_collide"
   ],
   "note": "Proved for all configurations, orders of sinks and histories with the levels trace to critical. Partial because the code deviates: received messages bypass topic filters, a participant that logs from remotes with a remote sink writes its own messages twice, messages before remote logging is set up are not published, unstructured messages get their topic twice, file names may collide, the registry has no logger."
  },
  {
   "property": "C58",
   "status": "partial",
   "theorems": [
    "SilKit.Props.C58_json_line",
    "SilKit.Props.C58_meaning_unique",
    "SilKit.Props.C58_one_line",
    "SilKit.Props.C58_lines_of_calls",
    "SilKit.Props.C58_control_characters_break_lines",
    "SilKit.Props.C58_name_forges_fields",
    "SilKit.Props.C58_simple_lines_forged"
   ],
   "note": "Proved exactly for names that need no escapes and texts without other control characters, and for no others: the code does not escape the name nor control characters beyond the five with short escapes."
  },
  {
   "property": "C59",
   "status": "partial",
   "theorems": [
    "SilKit.Props.C59_settings",
    "SilKit.Props.C59_labels",
    "SilKit.Props.C59_trace_sinks",
    "SilKit.Props.C59_accepted_iff",
    "SilKit.Props.C59_mismatch_reported",
    "SilKit.Props.C59_failure_leaves_nothing_partial",
    "SilKit.Props.C59_histories",
    "SilKit.Props.C59_services_stay",
    "SilKit.Props.C59_participant",
    "SilKit.Props.C59_once",
    "SilKit.Props.C59_failed_creation_remains",
    "SilKit.Props.C59_passed_history_counts",
    "SilKit.Props.C59_duplicate_labels_ambiguous",
    "SilKit.Props.C59_once_not_atomic"
   ],
   "note": "Settings, acceptance, uniqueness, announcements and the identity of the participant are proved for all configurations and histories; that a failed creation leaves nothing behind is proved for all failures but a missing trace source, for which the code violates it; uniqueness of the lifecycle service is proved for calls that do not overlap."
  },
  {
   "property": "C60",
   "status": "partial",
   "theorems": [
    "SilKit.Props.C60_message_exact",
    "SilKit.Props.C60_up_to_date",
    "SilKit.Props.C60_only_changes",
    "SilKit.Props.C60_kind_conflict",
    "SilKit.Props.C60_counter",
    "SilKit.Props.C60_texts",
    "SilKit.Props.C60_statistic",
    "SilKit.Props.C60_names_distinct_partial",
    "SilKit.Props.C60_sinks_get_all",
    "SilKit.Props.C60_collected",
    "SilKit.Props.C60_no_loops",
    "SilKit.Props.C60_changes_get_lost",
    "SilKit.Props.C60_stale_value",
    "SilKit.Props.C60_same_tick",
    "SilKit.Props.C60_names_coincide",
    "SilKit.Props.C60_mean_is_not_the_mean",
    "SilKit.Props.C60_remote_sinks_duplicate"
   ],
   "note": "Reports are proved exact and up to date for all histories of calls that do not overlap with a strictly increasing clock; the code loses changes for overlapping calls and equal clock values (proved). Names are proved distinct without slashes; the mean is not the mean (proved)."
  },
  {
   "property": "C61",
   "status": "partial",
   "theorems": [
    "SilKit.Props.C61_line_partial",
    "SilKit.Props.C61_meaning_unique",
    "SilKit.Props.C61_kinds",
    "SilKit.Props.C61_lists_not_escaped"
   ],
   "note": "Proved for all texts without those control characters that the code does not escape; for lists with control characters the claim is proved to be false. How doubles are written is an assumption (four JSON numbers)."
  },
  {
   "property": "C62",
   "status": "partial",
   "theorems": [
    "SilKit.Props.C62_every_report_arrives_once_and_in_order",
    "SilKit.Props.C62_exactly_the_participants_are_named",
    "SilKit.Props.C62_no_participant_twice",
    "SilKit.Props.C62_stopped_exactly_once",
    "SilKit.Props.C62_requests_are_in_order",
    "SilKit.Props.C62_reported_under_the_own_id",
    "SilKit.Props.C62_abort_keeps_a_beginning",
    "SilKit.Props.C62_every_change_of_state_is_queued",
    "SilKit.Props.C62_every_change_of_the_system_state_is_queued",
    "SilKit.Props.C62_connections_and_metrics_are_queued",
    "SilKit.Props.C62_created_services_are_queued",
    "SilKit.Props.C62_services_are_shown_as_what_they_are",
    "SilKit.Props.C62_recorded_while_connected_partial",
    "SilKit.Props.C62_no_event_is_lost_partial",
    "SilKit.Props.C62_recording_ends_with_the_first_departure",
    "SilKit.Props.C62_not_recorded_while_connected",
    "SilKit.Props.C62_no_second_start",
    "SilKit.Props.C62_metrics_overtake_connections",
    "SilKit.Props.C62_order_between_kinds_is_lost",
    "SilKit.Props.C62_shutdown_loses_the_end",
    "SilKit.Props.C62_failure_is_final",
    "SilKit.Props.C62_unknown_service_ends_reporting",
    "SilKit.Props.C62_refused_simulation_is_lost"
   ],
   "note": "Proved for every split into batches, all answers and all points of abort: reports arrive once and in order, under the own id, stops once, nothing after the end. Partial because the record of a simulation follows its participants only if those that stay have reported a state (counterexample proved), and because failures lose data (deviations)."
  },
  {
   "property": "C63",
   "status": "proved",
   "theorems": [
    "SilKit.Props.C63_accepted_iff_readable",
    "SilKit.Props.C63_options_have_their_values",
    "SilKit.Props.C63_flags_are_set_if_given",
    "SilKit.Props.C63_words_are_in_their_places",
    "SilKit.Props.C63_utilities_are_declared",
    "SilKit.Props.C63_rejected_argument_is_named",
    "SilKit.Props.C63_option_swallows_option",
    "SilKit.Props.C63_empty_value_is_no_value",
    "SilKit.Props.C63_names_with_a_dash_cannot_be_given"
   ],
   "note": "for all declarations that are sensible and all command lines; surprising but harmless behaviour is recorded in DESIGN 5"
  },
  {
   "property": "C64",
   "status": "partial",
   "theorems": [
    "SilKit.Props.C64_domain_sockets_are_a_shortcut_partial",
    "SilKit.Props.C64_returned_uri_leads_to_the_registry_partial",
    "SilKit.Props.C64_same_host_and_port_same_registry_partial",
    "SilKit.Props.C64_found_after_start",
    "SilKit.Props.C64_second_registry_splits",
    "SilKit.Props.C64_end_takes_the_socket_of_another",
    "SilKit.Props.C64_without_tcp_the_text_counts",
    "SilKit.Props.C64_local_uri_cannot_be_joined",
    "SilKit.Props.C64_no_tcp_on_ipv6_addresses",
    "SilKit.Props.C64_ipv6_addresses_with_letters_are_not_reached"
   ],
   "note": "proved for all histories in which every registry that starts gets its TCP socket and hosts have IPv4 addresses or IPv6 addresses without letters; the code violates the claim otherwise: two registries with one URI split the participants, sockets of others are removed, IPv6 addresses are not supported in full (six counterexample theorems)"
  },
  {
   "property": "C65",
   "status": "partial",
   "theorems": [
    "SilKit.Props.C65_reports_exact_partial",
    "SilKit.Props.C65_presence_exact_partial",
    "SilKit.Props.C65_workflow_exact_partial",
    "SilKit.Props.C65_connected_is_real",
    "SilKit.Props.C65_disconnected_is_real",
    "SilKit.Props.C65_told_after_setup",
    "SilKit.Props.C65_start_iff",
    "SilKit.Props.C65_workflow_once",
    "SilKit.Props.C65_workflow_needs_all",
    "SilKit.Props.C65_ghost_after_snapshot",
    "SilKit.Props.C65_ghost_before_registration",
    "SilKit.Props.C65_missed_between_receivers_and_name",
    "SilKit.Props.C65_missed_before_assignment",
    "SilKit.Props.C65_reported_twice",
    "SilKit.Props.C65_reconnect_forgotten",
    "SilKit.Props.C65_unknown_departure",
    "SilKit.Props.C65_workflow_without_participant",
    "SilKit.Props.C65_own_name_never_starts"
   ],
   "note": "exact reports, presence and workflow are proved when nothing happens while the user is in a function of the monitor; for all schedules: reports are real, the workflow is set at most once and as soon as the handlers have reported all; the races in which the code violates the claim are proved as counterexamples"
  },
  {
   "property": "C66",
   "status": "partial",
   "theorems": [
    "SilKit.Props.C66_reaction_exact_partial",
    "SilKit.Props.C66_bounded",
    "SilKit.Props.C66_reasons",
    "SilKit.Props.C66_exit_at_final_state",
    "SilKit.Props.C66_handler_once",
    "SilKit.Props.C66_signal_is_handled_partial",
    "SilKit.Props.C66_log_levels",
    "SilKit.Props.C66_running_simulation_is_aborted",
    "SilKit.Props.C66_never_ends",
    "SilKit.Props.C66_signal_lost",
    "SilKit.Props.C66_log_upper_case"
   ],
   "note": "bounds, reasons and the handling of one signal are proved for all environments, the exact reaction for a system state that does not change while the handler decides; the code violates the claim when it does, when the final state is never reached, and for signals just before the handler is removed (counterexamples)"
  },
  {
   "property": "C67",
   "status": "partial",
   "theorems": [
    "SilKit.Props.C67_steps_reach_all_handlers",
    "SilKit.Props.C67_no_steps_unsynchronized",
    "SilKit.Props.C67_now",
    "SilKit.Props.C67_calls_have_a_reason",
    "SilKit.Props.C67_tick_reaches_all_handlers",
    "SilKit.Props.C67_synchronized_calls_partial",
    "SilKit.Props.C67_ticks_go_on_partial",
    "SilKit.Props.C67_add_deadlocks",
    "SilKit.Props.C67_add_in_handler_terminates",
    "SilKit.Props.C67_handlers_forgotten",
    "SilKit.Props.C67_stale_tick",
    "SilKit.Props.C67_durations_drift"
   ],
   "note": "Simulation steps reach every handler exactly once with the right values, Now() is exact, every call is traced to a step or a tick, ticks go on from every state that is not deadlocked. Partial because the code violates the rest: deadlock and termination when adding handlers, forgotten handlers, stale ticks and drifting durations are proved."
  },
  {
   "property": "C68",
   "status": "partial",
   "theorems": [
    "SilKit.Props.C68_only_declared_ways",
    "SilKit.Props.C68_gives_up_only_if_nothing_is_left",
    "SilKit.Props.C68_every_schedule_ends",
    "SilKit.Props.C68_one_end",
    "SilKit.Props.C68_reaches_the_end_partial",
    "SilKit.Props.C68_relaying_always_connects_partial",
    "SilKit.Props.C68_direct_connection",
    "SilKit.Props.C68_one_connection_partial",
    "SilKit.Props.C68_two_connections",
    "SilKit.Props.C68_accepted_after_giving_up",
    "SilKit.Props.C68_waits_for_ever",
    "SilKit.Props.C68_unreadable_declaration_crashes",
    "SilKit.Props.C68_crashes_only_if_unreadable",
    "SilKit.Props.C68_registry_without_relaying"
   ],
   "note": "Only declared ways are used, giving up needs that nothing is left, every schedule ends, one end, relaying always connects while the peer lives and the registry relays, one connection unless the timer expires and the peer connects later. The code violates the rest: two connections, accepted after giving up, waiting for ever after a crash of the peer, exception for unreadable capabilities, registry that does not relay."
  },
  {
   "property": "C69",
   "status": "partial",
   "theorems": [
    "SilKit.Props.C69_short_names_have_distinct_ids_partial",
    "SilKit.Props.C69_short_names_are_not_the_registry_partial",
    "SilKit.Props.C69_neighbouring_characters_collide",
    "SilKit.Props.C69_every_id_belongs_to_a_name",
    "SilKit.Props.C69_every_name_shares_its_id",
    "SilKit.Props.C69_taken_for_the_registry",
    "SilKit.Props.C69_messages_reach_the_subscribers_partial",
    "SilKit.Props.C69_leaving_removes_another",
    "SilKit.Props.C69_lin_configurations_partial",
    "SilKit.Props.C69_lin_configuration_ignored",
    "SilKit.Props.C69_lin_configurations_merged",
    "SilKit.Props.C69_services_have_distinct_keys_partial",
    "SilKit.Props.C69_slashes_hide_services",
    "SilKit.Props.C69_log_files_partial",
    "SilKit.Props.C69_log_files_shared"
   ],
   "note": "Holds as long as the names have different identifiers (all short names of similar characters do), contain no slash and consist of safe characters; proved for all histories. The code violates it otherwise: the identifier is a weak hash of the name, and collisions are proved for every name."
  },
  {
   "property": "C70",
   "status": "partial",
   "theorems": [
    "SilKit.Props.C70_generated_configuration_is_replaced_at_once_partial",
    "SilKit.Props.C70_generated_configuration_is_whole_partial",
    "SilKit.Props.C70_ready_when_generated",
    "SilKit.Props.C70_full_disk_leaves_part_of_the_configuration",
    "SilKit.Props.C70_generated_configuration_outlives_the_registry",
    "SilKit.Props.C70_temporary_file_stays",
    "SilKit.Props.C70_status_file_is_true_partial",
    "SilKit.Props.C70_running_means_ready_partial",
    "SilKit.Props.C70_status_file_can_be_empty",
    "SilKit.Props.C70_status_file_can_be_stale",
    "SilKit.Props.C70_signal_ends_the_registry",
    "SilKit.Props.C70_exit_codes",
    "SilKit.Props.C70_signal_can_be_lost",
    "SilKit.Props.C70_signal_after_running_can_kill",
    "SilKit.Props.C70_no_undefined_behaviour_partial",
    "SilKit.Props.C70_dashboard_is_destroyed_too_early",
    "SilKit.Props.C70_settings",
    "SilKit.Props.C70_log_levels",
    "SilKit.Props.C70_flush_level_is_ignored"
   ],
   "note": "Proved for all interleavings, crash points and failures if the file system takes over what is written; the code deviates: partial configurations on a full disk, empty or stale status, lost or early signals, dashboard destroyed too early, stale generated files."
  },
  {
   "property": "C71",
   "status": "partial",
   "theorems": [
    "SilKit.Props.C71_wait_tells_the_final_state_partial",
    "SilKit.Props.C71_errors_have_reasons_partial",
    "SilKit.Props.C71_no_undefined_behaviour_partial",
    "SilKit.Props.C71_waiting_ends_partial",
    "SilKit.Props.C71_cpp_start_leaves_a_waiter",
    "SilKit.Props.C71_two_waiters_are_dangerous",
    "SilKit.Props.C71_wait_can_tell_the_state_of_another_participant",
    "SilKit.Props.C71_cpp_future_can_get_the_state_of_another_participant",
    "SilKit.Props.C71_second_start_spoils_the_first",
    "SilKit.Props.C71_second_start_is_dangerous",
    "SilKit.Props.C71_broken_entry_stays"
   ],
   "note": "Proved for all interleavings of careful users (one start, one call at a time per service, end waited for before destroying); careless but permitted use gives wrong states, lost ends or undefined behaviour."
  },
  {
   "property": "C72",
   "status": "partial",
   "theorems": [
    "SilKit.Props.C72_every_declared_function_is_there",
    "SilKit.Props.C72_null_arguments_are_refused_partial",
    "SilKit.Props.C72_unidentified_structs_are_refused_partial",
    "SilKit.Props.C72_fitting_arguments_reach_the_library",
    "SilKit.Props.C72_functions_without_structs_never_crash",
    "SilKit.Props.C72_success_is_true_partial",
    "SilKit.Props.C72_failure_stores_nothing",
    "SilKit.Props.C72_failures_have_texts_partial",
    "SilKit.Props.C72_every_function_can_be_used",
    "SilKit.Props.C72_null_handlers_are_kept_by_subscribers_violated",
    "SilKit.Props.C72_unidentified_structs_are_used_violated",
    "SilKit.Props.C72_other_structs_are_read_as_frames_violated",
    "SilKit.Props.C72_null_members_are_followed_violated",
    "SilKit.Props.C72_unknown_events_are_dropped_with_success_violated",
    "SilKit.Props.C72_events_of_other_buses_are_read_violated",
    "SilKit.Props.C72_unknown_commands_have_no_text_violated"
   ],
   "note": "proved for all 146 functions, all arguments and all outcomes of the library; partial because one handler, nine identifiers and many pointers inside of structs are not checked, and event producers report success for events they drop"
  },
  {
   "property": "C73",
   "status": "partial",
   "theorems": [
    "SilKit.Props.C73_messages_arrive_partial",
    "SilKit.Props.C73_messages_exactly",
    "SilKit.Props.C73_messages_stay_in_memory",
    "SilKit.Props.C73_mode_flags",
    "SilKit.Props.C73_status_timestamp_is_lost",
    "SilKit.Props.C73_invalid_payload_is_lost",
    "SilKit.Props.C73_unknown_mode_is_memory",
    "SilKit.Props.C73_events_are_sent",
    "SilKit.Props.C73_events_of_the_bus",
    "SilKit.Props.C73_old_transmit_event_is_memory",
    "SilKit.Props.C73_foreign_structures",
    "SilKit.Props.C73_tables_agree",
    "SilKit.Props.C73_networks_once",
    "SilKit.Props.C73_networks_simulated",
    "SilKit.Props.C73_networks_refused",
    "SilKit.Props.C73_networks_ignored",
    "SilKit.Props.C73_names_are_cut"
   ],
   "note": "Messages: exact characterisation of those that arrive unchanged, memory safety for all; events over all histories; networks over all histories. Partial because the code loses the LIN status timestamp and payloads marked invalid, passes uninitialised values for unknown Ethernet modes and old CAN transmit structures, and silently ignores unknown network types and networks given after the start."
  },
  {
   "property": "C74",
   "status": "partial",
   "theorems": [
    "SilKit.Props.C74_arrive_in_order",
    "SilKit.Props.C74_only_the_target",
    "SilKit.Props.C74_calls_in_order",
    "SilKit.Props.C74_refused_without_subscription",
    "SilKit.Props.C74_own_participant",
    "SilKit.Props.C74_refusal_is_not_reported",
    "SilKit.Props.C74_targeted_messages_are_repeated_to_others"
   ],
   "note": "Proved: order and exactly once after the accepted subscription, only the target without history, calls carried out in order, refusal exactly without subscription, messages to the own participant. The code violates the claim for types with history (repeated to others) and does not tell the caller of a refusal: proved as negations."
  },
  {
   "property": "C75",
   "status": "partial",
   "theorems": [
    "SilKit.Props.C75_only_the_same_version",
    "SilKit.Props.C75_first_match",
    "SilKit.Props.C75_fails_without_match",
    "SilKit.Props.C75_same_extension_later",
    "SilKit.Props.C75_extensions_are_real",
    "SilKit.Props.C75_incomplete_library_hides_others",
    "SilKit.Props.C75_failed_constructor_is_undefined",
    "SilKit.Props.C75_missing_system_name_is_undefined",
    "SilKit.Props.C75_rejected_libraries_stay_open",
    "SilKit.Props.C75_unreadable_directory_fails"
   ],
   "note": "Version and build, order, failure exactly without a match (complete libraries, files that can be examined) and the caches are proved for all file systems and histories; partial because incomplete libraries hide others, null pointers are dereferenced, rejected libraries stay open and unreadable directories fail: proved as negations."
  },
  {
   "property": "C76",
   "status": "partial",
   "theorems": [
    "SilKit.Props.C76_replaying_sent_frames_is_sending_them_partial",
    "SilKit.Props.C76_go_to_sleep_is_replayed",
    "SilKit.Props.C76_only_masters_replay",
    "SilKit.Props.C76_user_does_not_interfere",
    "SilKit.Props.C76_received_data_is_not_replayed",
    "SilKit.Props.C76_nothing_is_replayed_after_sleep",
    "SilKit.Props.C76_direction_is_ignored",
    "SilKit.Props.C76_invalid_identifier_is_undefined_behaviour"
   ],
   "note": "Proved for recordings of sent frames without go-to-sleep frames, over all histories, and for single go-to-sleep frames; the code violates the claim for received frames, after sleep, for the configured direction and for invalid identifiers (proved as negations). Masters without dynamic responses and without network simulation."
  },
  {
   "property": "C77",
   "status": "partial",
   "theorems": [
    "SilKit.Props.C77_own_channel_is_replayed",
    "SilKit.Props.C77_selected_channel_is_replayed",
    "SilKit.Props.C77_pcap_files_are_for_ethernet",
    "SilKit.Props.C77_no_replay_without_configuration",
    "SilKit.Props.C77_foreign_channel_breaks_creation",
    "SilKit.Props.C77_incomplete_channel_breaks_creation",
    "SilKit.Props.C77_names_with_slashes_are_not_found",
    "SilKit.Props.C77_channel_of_another_is_replayed",
    "SilKit.Props.C77_selection_ignores_the_type",
    "SilKit.Props.C77_unknown_source_throws"
   ],
   "note": "Proved for all files whose channels of the type are named as SIL Kit names them (without a selection) or have all six attributes (with one), and for PCAP files; the code violates the claim for other channels, names with slashes, selected channels of other types and unknown sources (proved as negations)."
  },
  {
   "property": "C78",
   "status": "partial",
   "theorems": [
    "SilKit.Props.C78_header_is_reported_to_all_partial",
    "SilKit.Props.C78_first_header_is_reported_to_all",
    "SilKit.Props.C78_dynamic_slaves_are_known",
    "SilKit.Props.C78_dynamic_slave_gets_the_header",
    "SilKit.Props.C78_response_is_received_by_all",
    "SilKit.Props.C78_dynamic_controllers_receive_every_response",
    "SilKit.Props.C78_round_partial",
    "SilKit.Props.C78_response_is_never_rejected",
    "SilKit.Props.C78_counterexample_second_responder",
    "SilKit.Props.C78_counterexample_two_responses",
    "SilKit.Props.C78_counterexample_no_response_is_not_reported",
    "SilKit.Props.C78_counterexample_response_without_header",
    "SilKit.Props.C78_counterexample_rejected_response_counts"
   ],
   "note": "Headers: for all histories in which nobody but one dynamic controller has ever offered a response to the identifier (in particular the first header), with dynamic and with static masters; responses: for all histories. The code violates the rest: see the counterexamples."
  },
  {
   "property": "C79",
   "status": "partial",
   "theorems": [
    "SilKit.Props.C79_foreign_messages_are_ignored",
    "SilKit.Props.C79_unsupported_version_is_never_decoded",
    "SilKit.Props.C79_unsupported_version_is_told_partial",
    "SilKit.Props.C79_counterexample_unsupported_version_gets_no_answer",
    "SilKit.Props.C79_other_simulation_is_told",
    "SilKit.Props.C79_rejection_is_told",
    "SilKit.Props.C79_acceptance",
    "SilKit.Props.C79_30_announcement_is_understood_partial",
    "SilKit.Props.C79_counterexample_30_participants_lose_their_simulation",
    "SilKit.Props.C79_counterexample_rejection_of_30_is_acceptance",
    "SilKit.Props.C79_counterexample_30_reply_is_read_out_of_bounds",
    "SilKit.Props.C79_counterexample_30_known_participants_are_lost"
   ],
   "note": "Proved: announcements of versions that are not understood are never decoded, and foreign messages are ignored; between current versions acceptance and every rejection are told exactly. The code violates the claim for versions that are not supported (no answer on new connections, proved for all of them) and for version 3.0 (rejection looks like acceptance, known participants and simulation names are lost, a reply is read out of bounds)."
  },
  {
   "property": "C80",
   "status": "partial",
   "theorems": [
    "SilKit.Props.C80_dynamic_stepping_is_as_documented_partial",
    "SilKit.Props.C80_rule_is_definite",
    "SilKit.Props.C80_next_call_repairs",
    "SilKit.Props.C80_setting_is_kept",
    "SilKit.Props.C80_request_is_advertised",
    "SilKit.Props.C80_remote_request_is_logged_once",
    "SilKit.Props.C80_remote_request_is_logged_with_cause",
    "SilKit.Props.C80_counterexample_opt_out_is_lost",
    "SilKit.Props.C80_counterexample_driver_is_lost"
   ],
   "note": "The documented rule for all histories of calls that do not overlap; for all schedules that the next call repairs the flag, that a setting made in quiet is kept, what is advertised, and that the message is logged at most once and not without cause. Missing: overlapping calls, where the code violates the rule in two ways."
  },
  {
   "property": "C81",
   "status": "partial",
   "theorems": [
    "SilKit.Props.C81_unsupported_participant_stops_the_simulation",
    "SilKit.Props.C81_no_abort_without_cause",
    "SilKit.Props.C81_others_do_not_abort",
    "SilKit.Props.C81_only_synchronized_participants_count",
    "SilKit.Props.C81_counterexample_unsynchronized_participant_aborts"
   ],
   "note": "Proved for all schedules in which the user makes the calls in the usual order, and the absence of other aborts for all schedules; one violation, if the time synchronization is created after the lifecycle was started."
  }
 ]
}