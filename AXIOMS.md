# Axioms of the theorems in MANIFEST.json

Generated by `tools/axioms.py` from `#print axioms`.

| property | theorem | axioms |
|---|---|---|
| C01 | `C01_ringbuffer_is_byte_queue` | propext, Classical.choice, Quot.sound |
| C01 | `C01_ringbuffer_fifo` | propext, Classical.choice, Quot.sound |
| C02 | `C02_framing_chunk_independent` | propext, Classical.choice, Quot.sound |
| C02 | `C02_all_delivered` | propext, Classical.choice, Quot.sound |
| C02 | `C02_delivered_is_prefix_of_frames` | propext, Classical.choice, Quot.sound |
| C03 | `C03_illegal_length_closes` | propext, Classical.choice, Quot.sound |
| C03 | `C03_exception_leaves_peer_deaf` | propext |
| C04 | `C04_outgoing_bytes_faithful` | propext, Classical.choice, Quot.sound |
| C04 | `C04_wire_is_prefix` | propext, Classical.choice, Quot.sound |
| C04 | `C04_idle_means_written` | propext, Classical.choice, Quot.sound |
| C04 | `C04_io_progress` | propext, Classical.choice, Quot.sound |
| C05 | `C05_aggregation_order` | propext, Classical.choice, Quot.sound |
| C05 | `C05_flush_message_is_a_barrier` | propext, Classical.choice, Quot.sound |
| C05 | `C05_control_overtakes_user_data` | none |
| C05 | `C05_timer_can_be_off_while_data_is_held` | none |
| C05 | `C05_timer_releases_held_data` | propext, Classical.choice, Quot.sound |
| C05 | `C05_held_data_is_bounded` | propext, Quot.sound |
| C06 | `C06_wire_roundtrip` | propext, Classical.choice, Quot.sound |
| C06 | `C06_unchanged_partial` | propext, Classical.choice, Quot.sound |
| C06 | `C06_whole_microseconds_unchanged` | propext, Classical.choice, Quot.sound |
| C06 | `C06_participant_status_unchanged` | propext, Classical.choice, Quot.sound |
| C06 | `C06_log_message_unchanged` | propext, Classical.choice, Quot.sound |
| C06 | `C06_time_precision_is_lost` | propext, Classical.choice, Quot.sound |
| C06 | `C06_framed_message_roundtrip` | propext, Classical.choice, Quot.sound |
| C06 | `C06_framed_subscription_roundtrip` | propext, Classical.choice, Quot.sound |
| C06 | `C06_handshake_roundtrip` | propext, Classical.choice, Quot.sound |
| C06 | `C06_legacy_handshake` | propext, Classical.choice, Quot.sound |
| C06 | `C06_old_log_message` | propext, Classical.choice, Quot.sound |
| C07 | `C07_decoding_is_memory_safe` | propext, Quot.sound |
| C07 | `C07_decoding_has_no_undefined_behaviour` | propext, Quot.sound |
| C07 | `C07_handshake_decoding_is_safe` | propext, Quot.sound |
| C07 | `C07_frame_headers_safe_partial` | propext, Quot.sound |
| C07 | `C07_short_registry_message_reads_out_of_bounds` | none |
| C07 | `C07_hostile_timestamp_overflows` | propext |
| C08 | `C08_serializer_roundtrip` | propext, Classical.choice, Quot.sound |
| C08 | `C08_serializer_reusable` | propext, Classical.choice, Quot.sound |
| C08 | `C08_reading_is_safe` | propext, Classical.choice, Quot.sound |
| C08 | `C08_oversized_unsigned_value_corrupts_next_field` | propext |
| C08 | `C08_oversized_bit_size_is_undefined_behaviour` | propext |
| C09 | `C09_labels_match_iff` | propext, Quot.sound |
| C09 | `C09_matching_is_symmetric` | none |
| C09 | `C09_no_labels` | propext, Quot.sound |
| C09 | `C09_repeated_keys_do_not_match` | none |
| C10 | `C10_subscriber_connections_exact_partial` | propext, Classical.choice, Quot.sound |
| C10 | `C10_registration_exact_partial` | propext, Classical.choice, Quot.sound |
| C10 | `C10_change_exact_partial` | propext, Classical.choice, Quot.sound |
| C10 | `C10_registration_reports_only_matches` | propext, Quot.sound |
| C10 | `C10_changes_reported_only_to_matches` | propext, Quot.sound |
| C10 | `C10_mandatory_labels_indexable` | none |
| C10 | `C10_optional_label_match_is_missed` | propext, Classical.choice, Quot.sound |
| C10 | `C10_optional_label_reported_twice` | propext |
| C10 | `C10_rpc_client_with_mandatory_label_misses_existing_server` | propext |
| C11 | `C11_events_alternate` | propext, Classical.choice, Quot.sound |
| C11 | `C11_last_event_is_current` | propext, Classical.choice, Quot.sound |
| C11 | `C11_late_handler_sees_alive_services` | propext, Classical.choice, Quot.sound |
| C11 | `C11_disconnect_removes_all` | propext, Classical.choice, Quot.sound |
| C11 | `C11_index_changes_alternate` | propext, Classical.choice, Quot.sound |
| C11 | `C11_announcements_are_honest` | propext, Classical.choice, Quot.sound |
| C11 | `C11_names_identify_services` | propext, Classical.choice, Quot.sound |
| C11 | `C11_slash_in_name_hides_a_service` | propext, Classical.choice, Quot.sound |
| C12 | `C12_steps_are_contiguous` | propext, Quot.sound |
| C12 | `C12_time_strictly_increases` | propext, Quot.sound |
| C12 | `C12_negative_duration_reverses_time` | propext |
| C13 | `C13_no_participant_overtakes_partial` | propext, Quot.sound |
| C13 | `C13_hop_on_overtakes` | propext, Quot.sound |
| C13 | `C13_continue_during_async_step` | propext |
| C14 | `C14_no_deadlock` | propext, Classical.choice, Quot.sound |
| C14 | `C14_quiet_means_somebody_steps` | propext, Classical.choice, Quot.sound |
| C14 | `C14_time_grows` | propext, Classical.choice, Quot.sound |
| C14 | `C14_engaged_never_aborts` | propext, Classical.choice, Quot.sound |
| C14 | `C14_synchronization_goes_on_forever` | propext, Classical.choice, Quot.sound |
| C14 | `C14_no_deadlock_partial` | propext, Classical.choice, Quot.sound |
| C14 | `C14_quiet_means_somebody_steps_partial` | propext, Classical.choice, Quot.sound |
| C14 | `C14_time_grows_partial` | propext, Classical.choice, Quot.sound |
| C14 | `C14_never_aborts` | propext, Classical.choice, Quot.sound |
| C14 | `C14_synchronization_goes_on_forever_partial` | propext, Classical.choice, Quot.sound |
| C14 | `C14_shortening_aborts` | propext, Classical.choice, Quot.sound |
| C15 | `C15_data_of_earlier_steps_is_received_partial` | propext, Quot.sound |
| C16 | `C16_dynamic_step_never_skips` | propext, Quot.sound |
| C16 | `C16_dynamic_step_is_as_long_as_possible` | propext, Quot.sound |
| C17 | `C17_transitions_follow_graph_partial` | propext, Classical.choice, Quot.sound |
| C17 | `C17_only_startup_steps_leave_graph` | propext, Classical.choice, Quot.sound |
| C17 | `C17_state_is_published` | propext, Quot.sound |
| C17 | `C17_interrupted_startup_leaves_graph` | propext |
| C17 | `C17_error_during_startup_is_forgotten` | propext |
| C17 | `C17_waits_for_subscriptions_only` | propext, Quot.sound |
| C18 | `C18_nothing_after_shutdown_partial` | propext, Classical.choice, Quot.sound |
| C18 | `C18_future_completed_once` | propext, Quot.sound |
| C18 | `C18_future_is_completed_partial` | propext, Classical.choice, Quot.sound |
| C18 | `C18_future_is_last_state` | propext, Quot.sound |
| C18 | `C18_interrupted_startup_never_completes` | propext, Quot.sound |
| C19 | `C19_handlers_in_order_partial` | propext, Classical.choice, Quot.sound |
| C19 | `C19_handlers_in_their_state` | propext, Quot.sound |
| C19 | `C19_abort_handler_is_told` | propext, Quot.sound |
| C19 | `C19_stop_handler_after_running` | propext, Quot.sound |
| C19 | `C19_interrupted_startup_repeats_handlers` | propext |
| C20 | `C20_reported_state_is_justified` | propext, Classical.choice, Quot.sound |
| C20 | `C20_reports_are_changes` | propext, Quot.sound |
| C20 | `C20_unanimous_state_is_system_state` | propext, Classical.choice, Quot.sound |
| C20 | `C20_alarm_is_immediate` | propext, Classical.choice, Quot.sound |
| C20 | `C20_alarm_dominates_partial` | propext, Classical.choice, Quot.sound |
| C20 | `C20_others_do_not_matter` | propext, Classical.choice, Quot.sound |
| C20 | `C20_depends_only_on_required_partial` | propext, Classical.choice, Quot.sound |
| C20 | `C20_monitor_reports_system_state` | propext, Classical.choice, Quot.sound |
| C20 | `C20_aborting_hides_error` | propext |
| C20 | `C20_shutting_down_hides_error` | propext |
| C20 | `C20_error_before_workflow_is_missed` | propext |
| C20 | `C20_disconnect_of_other_matters` | propext |
| C20 | `C20_state_depends_on_history` | propext |
| C21 | `C21_crash_is_reported_as_error` | propext, Classical.choice, Quot.sound |
| C21 | `C21_crash_drives_system_to_error_partial` | propext, Classical.choice, Quot.sound |
| C21 | `C21_clean_exit_is_not_an_error` | propext, Classical.choice, Quot.sound |
| C21 | `C21_crash_in_error_goes_unnoticed` | propext |
| C21 | `C21_presence_is_reported` | propext, Quot.sound |
| C22 | `C22_completed_once` | propext, Classical.choice, Quot.sound |
| C22 | `C22_one_at_a_time` | propext, Classical.choice, Quot.sound |
| C22 | `C22_all_have_processed` | propext, Classical.choice, Quot.sound |
| C22 | `C22_barrier_completes` | propext, Classical.choice, Quot.sound |
| C22 | `C22_second_request_is_dropped` | propext |
| C23 | `C23_returns_after_all_acknowledges_partial` | propext, Classical.choice, Quot.sound |
| C23 | `C23_returns_once_partial` | propext, Classical.choice, Quot.sound |
| C23 | `C23_returns_eventually_partial` | propext, Classical.choice, Quot.sound |
| C23 | `C23_no_exception_partial` | propext, Classical.choice, Quot.sound |
| C23 | `C23_async_handlers_partial` | propext, Classical.choice, Quot.sound |
| C23 | `C23_concurrent_call_returns_early` | propext, Quot.sound |
| C23 | `C23_concurrent_call_fails` | propext, Quot.sound |
| C23 | `C23_concurrent_call_completes_twice` | propext, Quot.sound |
| C23 | `C23_does_not_wait_for_shared_receiver` | propext, Quot.sound |
| C23 | `C23_async_handler_called_early` | propext, Quot.sound |
| C24 | `C24_unique_names` | propext, Quot.sound |
| C24 | `C24_told_of_all_present_partial` | propext, Quot.sound |
| C24 | `C24_admission_tells_partial` | propext, Quot.sound |
| C24 | `C24_later_is_told_of_earlier_partial` | propext, Quot.sound |
| C24 | `C24_admission_decision_partial` | propext, Classical.choice, Quot.sound |
| C24 | `C24_all_gone_means_empty_partial` | propext, Quot.sound |
| C24 | `C24_last_one_leaves_partial` | propext, Classical.choice, Quot.sound |
| C24 | `C24_no_dangling_connection_partial` | propext, Quot.sound |
| C24 | `C24_second_announcement_is_undefined_behaviour` | propext |
| C25 | `C25_participant_is_reachable_partial` | propext, Quot.sound |
| C25 | `C25_rejected_duplicate_makes_unreachable` | propext, Quot.sound |
| C25 | `C25_rejected_duplicate_is_reported_gone` | propext, Quot.sound |
| C26 | `C26_success_means_all_replied` | propext, Classical.choice, Quot.sound |
| C26 | `C26_failure_means_one_given_up` | propext, Classical.choice, Quot.sound |
| C26 | `C26_reported_at_most_once` | propext, Classical.choice, Quot.sound |
| C26 | `C26_threads_agree` | propext, Classical.choice, Quot.sound |
| C26 | `C26_success_is_reported` | propext, Classical.choice, Quot.sound |
| C26 | `C26_failure_is_reported` | propext, Classical.choice, Quot.sound |
| C26 | `C26_both_threads_report` | propext |
| C26 | `C26_silent_remote_is_not_noticed` | propext |
| C26 | `C26_user_is_woken_once` | propext, Classical.choice, Quot.sound |
| C27 | `C27_late_subscriber_receives_last_value_then_all_partial` | propext, Classical.choice, Quot.sound |
| C27 | `C27_data_messages_are_named_uniquely` | none |
| C27 | `C27_subscription_is_accepted` | propext, Classical.choice, Quot.sound |
| C27 | `C27_accepted_once` | propext, Classical.choice, Quot.sound |
| C27 | `C27_further_subscriber_receives_the_rest_partial` | propext, Classical.choice, Quot.sound |
| C27 | `C27_local_subscriber_receives_later_values_partial` | propext, Classical.choice, Quot.sound |
| C27 | `C27_second_subscriber_gets_no_history` | propext, Quot.sound |
| C27 | `C27_local_subscriber_gets_no_history` | propext, Quot.sound |
| C28 | `C28_sends_exactly_while_started` | propext, Classical.choice, Quot.sound |
| C28 | `C28_sender_sees_and_is_acknowledged_once` | propext, Classical.choice, Quot.sound |
| C28 | `C28_other_participants_receive_once` | propext, Classical.choice, Quot.sound |
| C28 | `C28_subscription_is_accepted` | propext, Classical.choice, Quot.sound |
| C28 | `C28_own_participant_receives_once` | propext, Classical.choice, Quot.sound |
| C28 | `C28_only_transmitted_frames_are_taken` | propext, Classical.choice, Quot.sound |
| C29 | `C29_handler_sees_exactly_what_it_asked_for` | propext, Classical.choice, Quot.sound |
| C29 | `C29_removed_handler_is_not_called` | propext, Classical.choice, Quot.sound |
| C29 | `C29_only_added_handlers_are_called` | propext, Quot.sound |
| C29 | `C29_handlers_are_added_once` | propext, Classical.choice, Quot.sound |
| C29 | `C29_context_is_visible_on_transmitted_frames_only` | propext, Classical.choice, Quot.sound |
| C29 | `C29_context_is_the_controllers_own` | propext, Classical.choice, Quot.sound |
| C29 | `C29_simulated_controller_listens_to_the_simulation_only` | propext, Quot.sound |
| C29 | `C29_simulated_controller_obeys_the_simulation` | propext, Classical.choice, Quot.sound |
| C29 | `C29_controller_without_simulation_takes_all_frames` | propext, Quot.sound |
| C30 | `C30_sends_exactly_while_active` | propext, Classical.choice, Quot.sound |
| C30 | `C30_sender_is_acknowledged_once` | propext, Classical.choice, Quot.sound |
| C30 | `C30_one_acknowledge_per_frame` | propext, Classical.choice, Quot.sound |
| C30 | `C30_other_participants_receive_once` | propext, Classical.choice, Quot.sound |
| C30 | `C30_subscription_is_accepted` | propext, Classical.choice, Quot.sound |
| C30 | `C30_own_participant_receives_once` | propext, Classical.choice, Quot.sound |
| C30 | `C30_only_transmitted_frames_are_taken` | propext, Classical.choice, Quot.sound |
| C30 | `C30_handlers_see_padded_frames` | propext, Classical.choice, Quot.sound |
| C31 | `C31_frame_of_the_single_responder_is_delivered_partial` | propext, Classical.choice, Quot.sound |
| C31 | `C31_frame_without_responder_is_not_delivered_partial` | propext, Classical.choice, Quot.sound |
| C31 | `C31_frame_with_several_responders_is_an_error_partial` | propext, Classical.choice, Quot.sound |
| C31 | `C31_received_iff_exactly_one_responds_partial` | propext, Classical.choice, Quot.sound |
| C31 | `C31_unannounced_response_is_reported` | propext, Classical.choice, Quot.sound |
| C31 | `C31_counterexample_sleeping_slave_responds` | propext |
| C31 | `C31_counterexample_departed_slave_is_counted` | propext, Classical.choice, Quot.sound |
| C31 | `C31_counterexample_late_master_misses_updates` | propext |
| C31 | `C31_counterexample_no_response_reported_as_error` | propext |
| C31 | `C31_counterexample_unknown_length` | propext |
| C32 | `C32_forbidden_call_is_rejected_partial` | propext, Classical.choice, Quot.sound |
| C32 | `C32_forbidden_call_leaves_the_network_partial` | propext, Classical.choice, Quot.sound |
| C32 | `C32_allowed_call_is_not_rejected` | propext, Classical.choice, Quot.sound |
| C32 | `C32_no_undefined_behaviour_with_lin_identifiers` | propext, Classical.choice, Quot.sound |
| C32 | `C32_sleeping_master_sends_no_frame` | propext, Classical.choice, Quot.sound |
| C32 | `C32_counterexample_dynamic_response_not_rejected` | propext |
| C32 | `C32_counterexample_sleeping_sendFrame_not_rejected` | propext |
| C32 | `C32_counterexample_sleeping_sendFrameHeader_not_rejected` | propext |
| C32 | `C32_counterexample_large_identifiers` | propext |
| C33 | `C33_configure_accepts_exactly_the_ranges_partial` | propext, Classical.choice, Quot.sound |
| C33 | `C33_documented_ranges_are_accepted` | propext, Classical.choice, Quot.sound |
| C33 | `C33_buffer_update_is_sent_exactly_for_configured_buffers` | propext, Classical.choice, Quot.sound |
| C33 | `C33_reconfiguration_is_sent_exactly_for_configured_buffers` | propext, Classical.choice, Quot.sound |
| C33 | `C33_messages_go_to_the_simulation` | propext, Classical.choice, Quot.sound |
| C33 | `C33_counterexample_unchecked_parameters` | none |
| C33 | `C33_counterexample_configuration_before_simulation_is_lost` | none |
| C34 | `rpc_not_reachable` | propext, Classical.choice, Quot.sound |
| C34 | `rpc_results_partial` | propext, Classical.choice, Quot.sound |
| C34 | `rpc_timeout_partial` | propext, Classical.choice, Quot.sound |
| C34 | `rpc_sent` | propext, Classical.choice, Quot.sound |
| C34 | `rpc_results_belong` | propext, Classical.choice, Quot.sound |
| C34 | `rpc_no_ub` | propext, Classical.choice, Quot.sound |
| C34 | `rpc_results_timeless` | propext, Classical.choice, Quot.sound |
| C34 | `rpc_timeout_after_results` | propext, Classical.choice, Quot.sound |
| C34 | `rpc_unsynchronized_two_results` | none |
| C34 | `rpc_departed` | propext, Classical.choice, Quot.sound |
| C34 | `rpc_all_servers_partial` | propext, Classical.choice, Quot.sound |
| C34 | `rpc_all_servers_timeless` | propext, Classical.choice, Quot.sound |
| C34 | `rpc_no_servers_no_messages` | propext, Classical.choice, Quot.sound |
| C34 | `rpc_called_data` | propext, Quot.sound |
| C34 | `rpc_called_once` | propext, Classical.choice, Quot.sound |
| C34 | `rpc_success_data` | propext, Quot.sound |
| C34 | `rpc_submit` | propext, Classical.choice, Quot.sound |
| C34 | `rpc_submit_before_enrolled` | propext, Quot.sound |
| C34 | `rpc_handler_missed` | propext, Quot.sound |
| C34 | `rpc_submit_twice` | propext, Quot.sound |
| C35 | `watchdog_at_most_once` | propext, Classical.choice, Quot.sound |
| C35 | `watchdog_exact_partial` | propext, Classical.choice, Quot.sound |
| C35 | `watchdog_looks` | propext, Classical.choice, Quot.sound |
| C35 | `watchdog_reported` | propext, Classical.choice, Quot.sound |
| C35 | `watchdog_sees` | propext, Classical.choice, Quot.sound |
| C35 | `watchdog_timeout_partial` | propext, Classical.choice, Quot.sound |
| C35 | `watchdog_warning_partial` | propext, Classical.choice, Quot.sound |
| C35 | `watchdog_in_time_partial` | propext, Classical.choice, Quot.sound |
| C35 | `watchdog_configure` | propext, Quot.sound |
| C35 | `watchdog_late_clock` | propext |
| C35 | `watchdog_second_step_unreported` | propext |
| C35 | `watchdog_second_warning_unreported` | propext |
| C35 | `watchdog_no_warning_before_timeout` | propext |
| C35 | `watchdog_unseen` | propext |
| C36 | `C36_identifiers_are_unique` | propext, Classical.choice, Quot.sound |
| C36 | `C36_only_registered_handlers_are_called` | propext, Quot.sound |
| C36 | `C36_removed_handler_is_not_called` | propext, Classical.choice, Quot.sound |
| C36 | `C36_called_in_order_at_most_once` | propext, Classical.choice, Quot.sound |
| C36 | `C36_all_registered_handlers_are_called_partial` | propext, Quot.sound |
| C36 | `C36_calls_follow_the_begin` | propext, Quot.sound |
| C36 | `C36_no_undefined_behaviour_partial` | propext, Quot.sound |
| C36 | `C36_plain_invocation` | propext, Quot.sound |
| C36 | `C36_self_removal_is_undefined_behaviour` | propext |
| C36 | `C36_handlers_added_meanwhile_are_called_too` | propext, Classical.choice, Quot.sound |
| C37 | `uri_make` | propext, Classical.choice, Quot.sound |
| C37 | `uri_make_iff` | propext, Classical.choice, Quot.sound |
| C37 | `uri_make_unnamed` | propext, Classical.choice, Quot.sound |
| C37 | `uri_accepted` | propext, Classical.choice, Quot.sound |
| C37 | `uri_grammar` | propext, Classical.choice, Quot.sound |
| C37 | `uri_local` | propext, Classical.choice, Quot.sound |
| C37 | `uri_remake` | propext, Classical.choice, Quot.sound |
| C37 | `uri_odd_ports` | propext, Classical.choice, Quot.sound |
| C38 | `C38_received_values_were_published` | propext, Classical.choice, Quot.sound |
| C38 | `C38_decoded_as_sent_partial` | propext, Classical.choice, Quot.sound |
| C38 | `C38_lin_and_flexray_networks_of_one_name_are_mixed_up` | propext |
| C38 | `C38_second_of_two_mixed_up_links_is_deaf` | propext, Quot.sound |
| C39 | `C39_ethernet_handler_sees_exactly_what_it_asked_for` | propext, Classical.choice, Quot.sound |
| C39 | `C39_ethernet_removed_handler_is_not_called` | propext, Classical.choice, Quot.sound |
| C39 | `C39_ethernet_handlers_are_distinct` | propext, Classical.choice, Quot.sound |
| C39 | `C39_ethernet_controllers_on_networks` | propext, Classical.choice, Quot.sound |
| C39 | `C39_lin_handler_sees_exactly_what_it_asked_for` | propext, Classical.choice, Quot.sound |
| C39 | `C39_lin_removed_handler_is_not_called` | propext, Classical.choice, Quot.sound |
| C39 | `C39_lin_handlers_are_distinct` | propext, Classical.choice, Quot.sound |
| C39 | `C39_lin_controllers_on_networks` | propext, Quot.sound |
| C39 | `C39_lin_transmission_is_reported` | propext, Classical.choice, Quot.sound |
| C39 | `C39_lin_wakeup_is_reported` | propext, Classical.choice, Quot.sound |
| C39 | `C39_lin_slave_configuration_is_announced` | propext, Classical.choice, Quot.sound |
| C39 | `C39_lin_first_slave_configuration_handler_is_told_at_once` | propext, Classical.choice, Quot.sound |
| C39 | `C39_flexray_reports_exactly_the_events_of_the_simulation` | propext, Classical.choice, Quot.sound |
| C39 | `C39_flexray_handler_sees_exactly_what_it_asked_for` | propext, Classical.choice, Quot.sound |
| C39 | `C39_flexray_removed_handler_is_not_called` | propext, Classical.choice, Quot.sound |
| C39 | `C39_flexray_handlers_are_distinct` | propext, Classical.choice, Quot.sound |
| C40 | `connect_tries_in_order_partial` | propext, Quot.sound |
| C40 | `connect_ends_once_partial` | propext, Classical.choice, Quot.sound |
| C40 | `connect_success_partial` | propext, Quot.sound |
| C40 | `connect_failure_partial` | propext, Quot.sound |
| C40 | `connect_reports_partial` | propext, Quot.sound |
| C40 | `connect_terminates_partial` | propext, Classical.choice, Quot.sound |
| C40 | `connect_goes_on_partial` | propext, Quot.sound |
| C40 | `connect_failure_at_once_is_reported_twice` | none |
| C40 | `connect_order` | propext, Classical.choice, Quot.sound |
| C40 | `connect_other_uri` | propext, Classical.choice, Quot.sound |
| C40 | `connect_tcp_uri` | propext, Classical.choice, Quot.sound |
| C40 | `connect_uris_given` | propext, Classical.choice, Quot.sound |
| C41 | `acceptors_told_iff` | propext, Classical.choice, Quot.sound |
| C41 | `acceptors_told` | propext, Classical.choice, Quot.sound |
| C41 | `acceptors_others_unchanged` | propext, Classical.choice, Quot.sound |
| C41 | `acceptors_catchall_reachable` | propext, Classical.choice, Quot.sound |
| C41 | `acceptors_no_catchall` | propext, Classical.choice, Quot.sound |
| C41 | `acceptors_no_duplicates` | propext, Classical.choice, Quot.sound |
| C41 | `acceptors_order` | propext, Classical.choice, Quot.sound |
| C42 | `C42_handlers_behave_as_one_container_partial` | propext, Quot.sound |
| C42 | `C42_the_given_handler_is_called_partial` | propext, Quot.sound |
| C42 | `C42_removed_handlers_are_not_called_partial` | propext, Classical.choice, Quot.sound |
| C42 | `C42_every_handler_is_called_partial` | propext, Quot.sound |
| C42 | `C42_no_undefined_behaviour_partial` | propext, Quot.sound |
| C42 | `C42_the_handler_set_last_is_called_partial` | propext, Classical.choice, Quot.sound |
| C42 | `C42_dueAt` | propext, Quot.sound |
| C42 | `C42_removing_a_slave_configuration_handler_frees_a_wakeup_handler` | propext, Quot.sound |
| C42 | `C42_setting_the_handler_of_a_server_is_undefined_behaviour` | propext, Quot.sound |
| C43 | `C43_events_arrive_as_they_are_partial` | propext, Classical.choice, Quot.sound |
| C43 | `C43_queried_status_is_exact` | propext, Quot.sound |
| C43 | `C43_calls_arrive_as_they_are_partial` | propext, Classical.choice, Quot.sound |
| C43 | `C43_updates_without_payload` | propext |
| C43 | `C43_exceptions_keep_class_and_text` | propext |
| C43 | `C43_foreign_exceptions` | propext |
| C43 | `C43_structure_identifiers` | propext, Classical.choice, Quot.sound |
| C43 | `C43_structures_have_their_own_identifiers` | propext |
| C43 | `C43_events_carry_their_identifiers_partial` | propext |
| C43 | `C43_slave_configuration` | propext, Classical.choice, Quot.sound |
| C43 | `C43_status_events_lose_the_refresh_time` | propext, Quot.sound |
| C43 | `C43_an_empty_payload_is_refused` | propext |
| C43 | `C43_wrong_headers` | propext |
| C43 | `C43_old_node_parameters_read_uninitialised_memory` | propext, Classical.choice, Quot.sound |
| C43 | `C43_unknown_exceptions_show_an_old_text` | propext |
| C44 | `pcap_roundtrip` | propext, Classical.choice, Quot.sound |
| C44 | `pcap_roundtrip_whole` | propext, Classical.choice, Quot.sound |
| C44 | `pcap_pipe_like_file` | propext |
| C44 | `pcap_trace_throws_iff` | propext |
| C44 | `pcap_concurrent_traces_mix` | none |
| C44 | `pcap_open_iff` | propext, Quot.sound |
| C44 | `C44_wrong_version_is_accepted` | none |
| C44 | `C44_other_programs_show_other_times` | propext, Classical.choice, Quot.sound |
| C44 | `C44_microsecond_files_are_refused` | propext, Quot.sound |
| C44 | `C44_closed_recording_is_not_changed` | none |
| C45 | `replay_active_iff` | propext |
| C45 | `replay_sends` | propext, Classical.choice, Quot.sound |
| C45 | `replay_deliveries` | propext, Classical.choice, Quot.sound |
| C45 | `replay_inactive_sends` | propext, Classical.choice, Quot.sound |
| C45 | `replay_inactive_deliveries` | propext, Classical.choice, Quot.sound |
| C45 | `replay_step` | propext, Classical.choice, Quot.sound |
| C45 | `replay_first_step` | propext, Classical.choice, Quot.sound |
| C45 | `replay_schedule` | propext, Classical.choice, Quot.sound |
| C45 | `C45_sends_nothing_without_source` | propext, Classical.choice, Quot.sound |
| C45 | `C45_blocked_without_replay` | propext |
| C45 | `C45_creation_throws_for_missing_source_only` | propext, Quot.sound |
| C46 | `record_replay` | propext, Classical.choice, Quot.sound |
| C46 | `C46_replayed_too_early` | propext, Classical.choice, Quot.sound |
| C46 | `C46_replayed_too_late` | propext, Classical.choice, Quot.sound |
| C46 | `C46_received_frames_are_sent` | propext, Classical.choice, Quot.sound |
| C46 | `C46_nothing_is_received_from_pcap` | propext, Classical.choice, Quot.sound |
| C47 | `C47_each_file_is_read_once_partial` | propext, Quot.sound |
| C47 | `C47_files_are_found` | propext, Quot.sound |
| C47 | `C47_includes_terminate` | propext, Quot.sound |
| C47 | `C47_configuration_of_files` | propext, Quot.sound |
| C47 | `C47_files_beside_the_root_are_not_found` | propext, Quot.sound |
| C47 | `C47_deep_includes_are_ignored` | propext, Quot.sound |
| C47 | `C47_root_is_included_again` | propext, Classical.choice, Quot.sound |
| C47 | `C47_other_name_is_read_again` | propext, Classical.choice, Quot.sound |
| C48 | `C48_merge_rules_partial` | propext, Classical.choice, Quot.sound |
| C48 | `C48_duplicates_match_partial` | propext |
| C48 | `C48_single_file_partial` | propext, Classical.choice, Quot.sound |
| C48 | `C48_different_services_are_dropped` | propext, Quot.sound |
| C48 | `C48_transmit_buffers_are_dropped` | propext |
| C48 | `C48_timeouts_are_redefined` | propext, Classical.choice, Quot.sound |
| C48 | `C48_written_defaults_are_overridden` | propext, Classical.choice, Quot.sound |
| C48 | `C48_metrics_options_are_lost` | propext, Classical.choice, Quot.sound |
| C48 | `C48_middleware_is_defined_twice` | propext, Quot.sound |
| C48 | `C48_versions_of_includes_are_not_checked` | propext, Quot.sound |
| C49 | `proxy_received_is_prefix_of_sent` | propext, Classical.choice, Quot.sound |
| C49 | `proxy_everything_arrives` | propext, Classical.choice, Quot.sound |
| C49 | `proxy_told_that_left_partial` | propext, Classical.choice, Quot.sound |
| C49 | `proxy_told_by_who_knew_partial` | propext, Classical.choice, Quot.sound |
| C49 | `proxy_events_are_named` | propext, Classical.choice, Quot.sound |
| C49 | `proxy_registry_lost_partial` | propext, Classical.choice, Quot.sound |
| C49 | `proxy_ub_iff_registry_lost_after_left` | propext, Classical.choice, Quot.sound |
| C49 | `proxy_registry_lost_ub_example` | propext, Quot.sound |
| C49 | `proxy_never_told_example` | propext, Quot.sound |
| C50 | `C50_never_early` | propext, Quot.sound |
| C50 | `C50_steps_at_most_early` | propext, Quot.sound |
| C50 | `C50_announced_at_most_a_step_early_partial` | propext, Quot.sound |
| C50 | `C50_prompt_participant_keeps_up` | propext, Classical.choice, Quot.sound |
| C50 | `C50_never_less_behind` | propext, Quot.sound |
| C50 | `C50_late_once_late_for_ever` | propext, Classical.choice, Quot.sound |
| C50 | `C50_announced_early_to_newcomer` | propext |
| C50 | `C50_announced_while_executing` | propext |
| C50 | `C50_changed_duration_starts_early` | propext |
| C51 | `NetSim.offered_are_the_existing` | propext, Classical.choice, Quot.sound |
| C51 | `NetSim.offered_unique` | propext, Classical.choice, Quot.sound |
| C51 | `NetSim.descriptors_increase` | propext, Classical.choice, Quot.sound |
| C51 | `NetSim.removed_was_offered` | propext, Classical.choice, Quot.sound |
| C51 | `NetSim.requests_reach_the_user` | propext, Classical.choice, Quot.sound |
| C51 | `NetSim.produced_reach_the_receivers` | propext, Classical.choice, Quot.sound |
| C51 | `NetSim.only_the_receiver_takes` | propext, Classical.choice, Quot.sound |
| C51 | `NetSim.producer_once` | propext, Quot.sound |
| C51 | `NetSim.producer_before_controllers_partial` | propext, Quot.sound |
| C51 | `NetSim.producer_missing_for_same_name` | propext |
| C51 | `NetSim.no_undefined_behaviour` | propext, Classical.choice, Quot.sound |
| C51 | `NetSim.duplicate_network_is_undefined` | propext |
| C51 | `NetSim.failed_start_is_final` | propext |
| C51 | `NetSim.detailed_while_simulated_partial` | propext, Classical.choice, Quot.sound |
| C51 | `NetSim.detached_by_another_type` | none |
| C51 | `NetSim.second_simulator_ends_first` | none |
| C51 | `NetSim.status_notices_partial` | propext, Classical.choice, Quot.sound |
| C51 | `NetSim.state_of_another_controller` | none |
| C51 | `C51_ethernet_controller_follows_its_simulator` | propext, Quot.sound |
| C51 | `NetSim.errors_have_a_cause` | propext, Quot.sound |
| C52 | `c52_nobody_runs_too_early` | propext, Classical.choice, Quot.sound |
| C52 | `c52_communication_ready_not_too_early` | propext, Classical.choice, Quot.sound |
| C52 | `c52_initializing_not_too_early` | propext, Classical.choice, Quot.sound |
| C52 | `c52_reported_in_order` | propext, Classical.choice, Quot.sound |
| C52 | `c52_start_completes_partial` | propext, Classical.choice, Quot.sound |
| C52 | `c52_start_undisturbed_partial` | propext, Classical.choice, Quot.sound |
| C52 | `c52_late_workflow_stuck` | propext, Quot.sound |
| C53 | `configuration_can_be_written` | propext, Classical.choice, Quot.sound |
| C53 | `configuration_is_read_as_written_partial` | propext, Classical.choice, Quot.sound |
| C53 | `configuration_survives_iff` | propext, Classical.choice, Quot.sound |
| C53 | `lossless_configurations_differ_in_text` | propext, Classical.choice, Quot.sound |
| C53 | `second_round_trip_loses_nothing` | propext, Classical.choice, Quot.sound |
| C53 | `written_configuration_cannot_be_read_iff` | propext, Classical.choice, Quot.sound |
| C53 | `registry_configuration_is_read_as_written_partial` | propext, Classical.choice, Quot.sound |
| C53 | `registry_with_metrics_cannot_be_written` | propext, Quot.sound |
| C53 | `sink_topics_are_lost` | propext, Classical.choice, Quot.sound |
| C53 | `sink_format_is_lost` | propext, Classical.choice, Quot.sound |
| C53 | `update_interval_is_lost` | propext, Classical.choice, Quot.sound |
| C53 | `replay_without_source_is_lost` | propext, Classical.choice, Quot.sound |
| C53 | `version_is_added` | propext, Classical.choice, Quot.sound |
| C53 | `flexray_parameter_wraps` | propext, Classical.choice, Quot.sound |
| C53 | `optional_parameter_is_checked` | propext, Classical.choice, Quot.sound |
| C54 | `ConfigSchema.accepted_iff_well_formed` | propext, Classical.choice, Quot.sound |
| C54 | `ConfigSchema.written_configuration_is_accepted_silently` | propext, Classical.choice, Quot.sound |
| C54 | `ConfigSchema.unknown_elements_have_no_effect` | propext, Classical.choice, Quot.sound |
| C54 | `ConfigSchema.valid_document_is_its_known_part` | propext, Classical.choice, Quot.sound |
| C54 | `ConfigSchema.unknown_elements_are_reported` | propext, Classical.choice, Quot.sound |
| C54 | `ConfigSchema.ignored_elements_are_unknown` | propext, Classical.choice, Quot.sound |
| C54 | `ConfigSchema.list_below_unknown_element_is_rejected` | propext, Classical.choice, Quot.sound |
| C54 | `ConfigSchema.reserved_name_below_unknown_element_is_rejected` | propext, Classical.choice, Quot.sound |
| C54 | `ConfigSchema.key_with_separator_is_silently_without_effect` | propext, Classical.choice, Quot.sound |
| C54 | `ConfigSchema.empty_key_is_silently_without_effect` | propext, Classical.choice, Quot.sound |
| C54 | `ConfigSchema.empty_key_at_the_root_is_rejected` | propext, Classical.choice, Quot.sound |
| C54 | `ConfigSchema.duplicate_message_names_the_wrong_path` | propext, Classical.choice, Quot.sound |
| C54 | `ConfigSchema.accepted_document_may_be_unreadable` | propext, Classical.choice, Quot.sound |
| C55 | `RawStream.requests_and_completions_take_turns_partial` | propext, Quot.sound |
| C55 | `RawStream.request_is_not_lost` | propext, Classical.choice, Quot.sound |
| C55 | `RawStream.second_request_is_refused` | propext, Quot.sound |
| C55 | `RawStream.second_write_is_refused` | propext, Quot.sound |
| C55 | `RawStream.second_request_is_accepted_before_the_report` | propext |
| C55 | `RawStream.listener_gets_what_was_sent` | propext, Quot.sound |
| C55 | `RawStream.nothing_received_is_lost` | propext, Quot.sound |
| C55 | `RawStream.written_is_handed_over` | propext, Quot.sound |
| C55 | `RawStream.end_is_reported_once_and_last` | propext, Quot.sound |
| C55 | `RawStream.end_has_a_reason` | propext, Classical.choice, Quot.sound |
| C55 | `RawStream.end_is_reported_when_idle` | propext, Quot.sound |
| C55 | `RawStream.end_is_reported_after_one_round` | propext, Quot.sound |
| C55 | `RawStream.end_is_reported_after_a_failure` | propext, Quot.sound |
| C55 | `RawStream.end_is_reported_after_a_failed_write` | propext, Quot.sound |
| C55 | `RawStream.nothing_is_left_after_the_end` | propext, Quot.sound |
| C55 | `RawStream.completions_do_not_throw` | propext, Quot.sound |
| C55 | `RawStream.nothing_is_delivered_after_shutdown` | propext, Quot.sound |
| C55 | `RawStream.failed_write_discards_received_data` | propext, Quot.sound |
| C56 | `C56_only_matching_publishers_are_heard` | propext, Classical.choice, Quot.sound |
| C56 | `C56_handled_in_order_without_gaps` | propext, Classical.choice, Quot.sound |
| C56 | `C56_handled_up_to_the_end` | propext, Classical.choice, Quot.sound |
| C56 | `C56_matching_subscriber_handles_all_later_values_partial` | propext, Classical.choice, Quot.sound |
| C56 | `C56_local_subscriber_handles_all_later_values_partial` | propext, Classical.choice, Quot.sound |
| C56 | `C56_late_joiner_handles_last_value_then_all` | propext, Classical.choice, Quot.sound |
| C56 | `C56_local_late_joiner_misses_the_last_value` | propext, Quot.sound |
| C56 | `C56_matching_subscriber_may_hear_nothing` | propext, Quot.sound |
| C57 | `C57_own_messages` | propext, Classical.choice, Quot.sound |
| C57 | `C57_sink_contents` | propext, Classical.choice, Quot.sound |
| C57 | `C57_remote_messages` | propext, Classical.choice, Quot.sound |
| C57 | `C57_remote_complete` | propext, Classical.choice, Quot.sound |
| C57 | `C57_received_not_forwarded` | propext, Classical.choice, Quot.sound |
| C57 | `C57_calls_succeed` | propext, Classical.choice, Quot.sound |
| C57 | `C57_log_level` | propext, Classical.choice, Quot.sound |
| C57 | `C57_simple_line` | propext, Classical.choice, Quot.sound |
| C57 | `C57_simple_line_injective` | propext, Classical.choice, Quot.sound |
| C57 | `C57_files_differ` | propext, Classical.choice, Quot.sound |
| C57 | `C57_received_ignore_topics` | propext, Classical.choice, Quot.sound |
| C57 | `C57_off_is_written` | propext, Classical.choice, Quot.sound |
| C57 | `C57_unknown_level_throws` | propext, Classical.choice, Quot.sound |
| C57 | `C57_own_messages_twice` | propext, Classical.choice, Quot.sound |
| C57 | `C57_topic_doubled` | propext, Classical.choice, Quot.sound |
| C57 | `C57_early_messages_lost` | propext, Classical.choice, Quot.sound |
| C57 | `C57_registry_logger_rejected` | none |
| C57 | `C57_files_collide` | propext, Classical.choice, Quot.sound |
| C58 | `C58_json_line` | propext, Classical.choice, Quot.sound |
| C58 | `C58_meaning_unique` | propext, Quot.sound |
| C58 | `C58_one_line` | propext, Classical.choice, Quot.sound |
| C58 | `C58_lines_of_calls` | propext, Classical.choice, Quot.sound |
| C58 | `C58_control_characters_break_lines` | propext, Classical.choice, Quot.sound |
| C58 | `C58_name_forges_fields` | propext, Classical.choice, Quot.sound |
| C58 | `C58_simple_lines_forged` | propext, Classical.choice, Quot.sound |
| C59 | `C59_settings` | propext, Classical.choice, Quot.sound |
| C59 | `C59_labels` | propext, Classical.choice, Quot.sound |
| C59 | `C59_trace_sinks` | propext, Classical.choice, Quot.sound |
| C59 | `C59_accepted_iff` | propext, Classical.choice, Quot.sound |
| C59 | `C59_mismatch_reported` | propext, Classical.choice, Quot.sound |
| C59 | `C59_failure_leaves_nothing_partial` | propext, Classical.choice, Quot.sound |
| C59 | `C59_histories` | propext, Classical.choice, Quot.sound |
| C59 | `C59_services_stay` | propext, Classical.choice, Quot.sound |
| C59 | `C59_participant` | propext, Quot.sound |
| C59 | `C59_once` | propext, Quot.sound |
| C59 | `C59_failed_creation_remains` | propext, Classical.choice, Quot.sound |
| C59 | `C59_passed_history_counts` | propext, Classical.choice, Quot.sound |
| C59 | `C59_duplicate_labels_ambiguous` | propext, Classical.choice, Quot.sound |
| C59 | `C59_once_not_atomic` | propext, Quot.sound |
| C60 | `C60_message_exact` | propext, Classical.choice, Quot.sound |
| C60 | `C60_up_to_date` | propext, Classical.choice, Quot.sound |
| C60 | `C60_only_changes` | propext, Classical.choice, Quot.sound |
| C60 | `C60_kind_conflict` | propext, Classical.choice, Quot.sound |
| C60 | `C60_counter` | propext, Classical.choice, Quot.sound |
| C60 | `C60_texts` | propext, Classical.choice, Quot.sound |
| C60 | `C60_statistic` | propext, Classical.choice, Quot.sound |
| C60 | `C60_names_distinct_partial` | propext |
| C60 | `C60_sinks_get_all` | propext, Classical.choice, Quot.sound |
| C60 | `C60_collected` | propext, Classical.choice, Quot.sound |
| C60 | `C60_no_loops` | propext |
| C60 | `C60_changes_get_lost` | propext, Classical.choice, Quot.sound |
| C60 | `C60_stale_value` | propext, Classical.choice, Quot.sound |
| C60 | `C60_same_tick` | propext, Classical.choice, Quot.sound |
| C60 | `C60_names_coincide` | propext, Classical.choice, Quot.sound |
| C60 | `C60_mean_is_not_the_mean` | propext, Classical.choice, Quot.sound |
| C60 | `C60_remote_sinks_duplicate` | none |
| C61 | `C61_line_partial` | propext, Classical.choice, Quot.sound |
| C61 | `C61_meaning_unique` | propext |
| C61 | `C61_kinds` | propext, Classical.choice, Quot.sound |
| C61 | `C61_lists_not_escaped` | propext, Quot.sound |
| C62 | `C62_every_report_arrives_once_and_in_order` | propext, Classical.choice, Quot.sound |
| C62 | `C62_exactly_the_participants_are_named` | propext, Classical.choice, Quot.sound |
| C62 | `C62_no_participant_twice` | propext, Classical.choice, Quot.sound |
| C62 | `C62_stopped_exactly_once` | propext, Classical.choice, Quot.sound |
| C62 | `C62_requests_are_in_order` | propext, Classical.choice, Quot.sound |
| C62 | `C62_reported_under_the_own_id` | propext, Classical.choice, Quot.sound |
| C62 | `C62_abort_keeps_a_beginning` | propext, Classical.choice, Quot.sound |
| C62 | `C62_every_change_of_state_is_queued` | propext, Classical.choice, Quot.sound |
| C62 | `C62_every_change_of_the_system_state_is_queued` | propext |
| C62 | `C62_connections_and_metrics_are_queued` | propext |
| C62 | `C62_created_services_are_queued` | propext |
| C62 | `C62_services_are_shown_as_what_they_are` | propext, Classical.choice, Quot.sound |
| C62 | `C62_recorded_while_connected_partial` | propext, Classical.choice, Quot.sound |
| C62 | `C62_no_event_is_lost_partial` | propext, Classical.choice, Quot.sound |
| C62 | `C62_recording_ends_with_the_first_departure` | propext, Classical.choice, Quot.sound |
| C62 | `C62_not_recorded_while_connected` | propext, Classical.choice, Quot.sound |
| C62 | `C62_no_second_start` | propext |
| C62 | `C62_metrics_overtake_connections` | propext |
| C62 | `C62_order_between_kinds_is_lost` | propext |
| C62 | `C62_shutdown_loses_the_end` | propext |
| C62 | `C62_failure_is_final` | propext |
| C62 | `C62_unknown_service_ends_reporting` | propext |
| C62 | `C62_refused_simulation_is_lost` | propext |
| C63 | `C63_accepted_iff_readable` | propext, Classical.choice, Quot.sound |
| C63 | `C63_options_have_their_values` | propext, Classical.choice, Quot.sound |
| C63 | `C63_flags_are_set_if_given` | propext, Classical.choice, Quot.sound |
| C63 | `C63_words_are_in_their_places` | propext, Classical.choice, Quot.sound |
| C63 | `C63_utilities_are_declared` | propext, Classical.choice, Quot.sound |
| C63 | `C63_rejected_argument_is_named` | propext, Quot.sound |
| C63 | `C63_option_swallows_option` | propext, Classical.choice, Quot.sound |
| C63 | `C63_empty_value_is_no_value` | propext |
| C63 | `C63_names_with_a_dash_cannot_be_given` | propext, Classical.choice, Quot.sound |
| C64 | `C64_domain_sockets_are_a_shortcut_partial` | propext, Classical.choice, Quot.sound |
| C64 | `C64_returned_uri_leads_to_the_registry_partial` | propext, Classical.choice, Quot.sound |
| C64 | `C64_same_host_and_port_same_registry_partial` | propext, Classical.choice, Quot.sound |
| C64 | `C64_found_after_start` | propext, Classical.choice, Quot.sound |
| C64 | `C64_second_registry_splits` | propext, Classical.choice, Quot.sound |
| C64 | `C64_end_takes_the_socket_of_another` | propext, Classical.choice, Quot.sound |
| C64 | `C64_without_tcp_the_text_counts` | propext, Classical.choice, Quot.sound |
| C64 | `C64_local_uri_cannot_be_joined` | propext, Classical.choice, Quot.sound |
| C64 | `C64_no_tcp_on_ipv6_addresses` | propext, Classical.choice, Quot.sound |
| C64 | `C64_ipv6_addresses_with_letters_are_not_reached` | propext, Classical.choice, Quot.sound |
| C65 | `C65_reports_exact_partial` | propext, Classical.choice, Quot.sound |
| C65 | `C65_presence_exact_partial` | propext, Classical.choice, Quot.sound |
| C65 | `C65_workflow_exact_partial` | propext, Classical.choice, Quot.sound |
| C65 | `C65_connected_is_real` | propext, Classical.choice, Quot.sound |
| C65 | `C65_disconnected_is_real` | propext, Classical.choice, Quot.sound |
| C65 | `C65_told_after_setup` | propext, Quot.sound |
| C65 | `C65_start_iff` | propext, Classical.choice, Quot.sound |
| C65 | `C65_workflow_once` | propext, Classical.choice, Quot.sound |
| C65 | `C65_workflow_needs_all` | propext, Classical.choice, Quot.sound |
| C65 | `C65_ghost_after_snapshot` | none |
| C65 | `C65_ghost_before_registration` | none |
| C65 | `C65_missed_between_receivers_and_name` | none |
| C65 | `C65_missed_before_assignment` | none |
| C65 | `C65_reported_twice` | none |
| C65 | `C65_reconnect_forgotten` | none |
| C65 | `C65_unknown_departure` | none |
| C65 | `C65_workflow_without_participant` | propext, Classical.choice, Quot.sound |
| C65 | `C65_own_name_never_starts` | propext, Classical.choice, Quot.sound |
| C66 | `C66_reaction_exact_partial` | propext, Quot.sound |
| C66 | `C66_bounded` | propext, Quot.sound |
| C66 | `C66_reasons` | propext, Quot.sound |
| C66 | `C66_exit_at_final_state` | propext, Quot.sound |
| C66 | `C66_handler_once` | propext, Classical.choice, Quot.sound |
| C66 | `C66_signal_is_handled_partial` | propext, Classical.choice, Quot.sound |
| C66 | `C66_log_levels` | propext, Classical.choice, Quot.sound |
| C66 | `C66_running_simulation_is_aborted` | propext, Quot.sound |
| C66 | `C66_never_ends` | propext, Quot.sound |
| C66 | `C66_signal_lost` | none |
| C66 | `C66_log_upper_case` | propext, Classical.choice, Quot.sound |
| C67 | `C67_steps_reach_all_handlers` | propext, Classical.choice, Quot.sound |
| C67 | `C67_no_steps_unsynchronized` | propext, Classical.choice, Quot.sound |
| C67 | `C67_now` | propext, Classical.choice, Quot.sound |
| C67 | `C67_calls_have_a_reason` | propext, Classical.choice, Quot.sound |
| C67 | `C67_tick_reaches_all_handlers` | propext, Classical.choice, Quot.sound |
| C67 | `C67_synchronized_calls_partial` | propext, Classical.choice, Quot.sound |
| C67 | `C67_ticks_go_on_partial` | propext, Classical.choice, Quot.sound |
| C67 | `C67_add_deadlocks` | propext, Classical.choice, Quot.sound |
| C67 | `C67_add_in_handler_terminates` | propext, Classical.choice, Quot.sound |
| C67 | `C67_handlers_forgotten` | propext, Classical.choice, Quot.sound |
| C67 | `C67_stale_tick` | propext |
| C67 | `C67_durations_drift` | propext |
| C68 | `C68_only_declared_ways` | propext, Classical.choice, Quot.sound |
| C68 | `C68_gives_up_only_if_nothing_is_left` | propext, Classical.choice, Quot.sound |
| C68 | `C68_every_schedule_ends` | propext, Quot.sound |
| C68 | `C68_one_end` | propext, Classical.choice, Quot.sound |
| C68 | `C68_reaches_the_end_partial` | propext, Classical.choice, Quot.sound |
| C68 | `C68_relaying_always_connects_partial` | propext, Classical.choice, Quot.sound |
| C68 | `C68_direct_connection` | propext |
| C68 | `C68_one_connection_partial` | propext, Classical.choice, Quot.sound |
| C68 | `C68_two_connections` | propext |
| C68 | `C68_accepted_after_giving_up` | propext |
| C68 | `C68_waits_for_ever` | propext, Classical.choice, Quot.sound |
| C68 | `C68_unreadable_declaration_crashes` | propext |
| C68 | `C68_crashes_only_if_unreadable` | propext, Classical.choice, Quot.sound |
| C68 | `C68_registry_without_relaying` | propext |
| C69 | `C69_short_names_have_distinct_ids_partial` | propext, Classical.choice, Quot.sound |
| C69 | `C69_short_names_are_not_the_registry_partial` | propext, Quot.sound |
| C69 | `C69_neighbouring_characters_collide` | propext, Classical.choice, Quot.sound |
| C69 | `C69_every_id_belongs_to_a_name` | propext, Classical.choice, Quot.sound |
| C69 | `C69_every_name_shares_its_id` | propext, Classical.choice, Quot.sound |
| C69 | `C69_taken_for_the_registry` | propext, Classical.choice, Quot.sound |
| C69 | `C69_messages_reach_the_subscribers_partial` | propext, Quot.sound |
| C69 | `C69_leaving_removes_another` | propext, Classical.choice, Quot.sound |
| C69 | `C69_lin_configurations_partial` | propext, Quot.sound |
| C69 | `C69_lin_configuration_ignored` | propext, Classical.choice, Quot.sound |
| C69 | `C69_lin_configurations_merged` | propext, Classical.choice, Quot.sound |
| C69 | `C69_services_have_distinct_keys_partial` | propext, Classical.choice, Quot.sound |
| C69 | `C69_slashes_hide_services` | propext, Classical.choice, Quot.sound |
| C69 | `C69_log_files_partial` | propext, Classical.choice, Quot.sound |
| C69 | `C69_log_files_shared` | propext, Classical.choice, Quot.sound |
| C70 | `C70_generated_configuration_is_replaced_at_once_partial` | propext, Classical.choice, Quot.sound |
| C70 | `C70_generated_configuration_is_whole_partial` | propext, Classical.choice, Quot.sound |
| C70 | `C70_ready_when_generated` | propext, Classical.choice, Quot.sound |
| C70 | `C70_full_disk_leaves_part_of_the_configuration` | propext, Classical.choice, Quot.sound |
| C70 | `C70_generated_configuration_outlives_the_registry` | propext, Classical.choice, Quot.sound |
| C70 | `C70_temporary_file_stays` | propext, Classical.choice, Quot.sound |
| C70 | `C70_status_file_is_true_partial` | propext, Classical.choice, Quot.sound |
| C70 | `C70_running_means_ready_partial` | propext, Classical.choice, Quot.sound |
| C70 | `C70_status_file_can_be_empty` | propext, Classical.choice, Quot.sound |
| C70 | `C70_status_file_can_be_stale` | propext, Classical.choice, Quot.sound |
| C70 | `C70_signal_ends_the_registry` | propext, Classical.choice, Quot.sound |
| C70 | `C70_exit_codes` | propext, Classical.choice, Quot.sound |
| C70 | `C70_signal_can_be_lost` | propext, Classical.choice, Quot.sound |
| C70 | `C70_signal_after_running_can_kill` | propext, Classical.choice, Quot.sound |
| C70 | `C70_no_undefined_behaviour_partial` | propext, Classical.choice, Quot.sound |
| C70 | `C70_dashboard_is_destroyed_too_early` | propext, Classical.choice, Quot.sound |
| C70 | `C70_settings` | propext, Classical.choice, Quot.sound |
| C70 | `C70_log_levels` | propext, Classical.choice, Quot.sound |
| C70 | `C70_flush_level_is_ignored` | propext, Classical.choice, Quot.sound |
| C71 | `C71_wait_tells_the_final_state_partial` | propext, Classical.choice, Quot.sound |
| C71 | `C71_errors_have_reasons_partial` | propext, Classical.choice, Quot.sound |
| C71 | `C71_no_undefined_behaviour_partial` | propext, Classical.choice, Quot.sound |
| C71 | `C71_waiting_ends_partial` | propext, Classical.choice, Quot.sound |
| C71 | `C71_cpp_start_leaves_a_waiter` | propext, Classical.choice, Quot.sound |
| C71 | `C71_two_waiters_are_dangerous` | propext |
| C71 | `C71_wait_can_tell_the_state_of_another_participant` | propext |
| C71 | `C71_cpp_future_can_get_the_state_of_another_participant` | propext |
| C71 | `C71_second_start_spoils_the_first` | propext |
| C71 | `C71_second_start_is_dangerous` | propext |
| C71 | `C71_broken_entry_stays` | propext |
| C72 | `C72_every_declared_function_is_there` | none |
| C72 | `C72_null_arguments_are_refused_partial` | propext, Quot.sound |
| C72 | `C72_unidentified_structs_are_refused_partial` | propext, Classical.choice, Quot.sound |
| C72 | `C72_fitting_arguments_reach_the_library` | propext, Classical.choice, Quot.sound |
| C72 | `C72_functions_without_structs_never_crash` | propext, Quot.sound |
| C72 | `C72_success_is_true_partial` | propext, Quot.sound |
| C72 | `C72_failure_stores_nothing` | propext, Quot.sound |
| C72 | `C72_failures_have_texts_partial` | propext, Quot.sound |
| C72 | `C72_every_function_can_be_used` | propext, Quot.sound |
| C72 | `C72_null_handlers_are_kept_by_subscribers_violated` | propext, Quot.sound |
| C72 | `C72_unidentified_structs_are_used_violated` | propext, Quot.sound |
| C72 | `C72_other_structs_are_read_as_frames_violated` | propext, Classical.choice, Quot.sound |
| C72 | `C72_null_members_are_followed_violated` | propext, Quot.sound |
| C72 | `C72_unknown_events_are_dropped_with_success_violated` | propext, Classical.choice, Quot.sound |
| C72 | `C72_events_of_other_buses_are_read_violated` | propext, Quot.sound |
| C72 | `C72_unknown_commands_have_no_text_violated` | propext, Quot.sound |
| C73 | `C73_messages_arrive_partial` | propext, Classical.choice, Quot.sound |
| C73 | `C73_messages_exactly` | propext, Classical.choice, Quot.sound |
| C73 | `C73_messages_stay_in_memory` | propext, Quot.sound |
| C73 | `C73_mode_flags` | propext, Quot.sound |
| C73 | `C73_status_timestamp_is_lost` | propext, Quot.sound |
| C73 | `C73_invalid_payload_is_lost` | propext, Quot.sound |
| C73 | `C73_unknown_mode_is_memory` | propext, Quot.sound |
| C73 | `C73_events_are_sent` | propext, Quot.sound |
| C73 | `C73_events_of_the_bus` | propext |
| C73 | `C73_old_transmit_event_is_memory` | propext |
| C73 | `C73_foreign_structures` | propext |
| C73 | `C73_tables_agree` | none |
| C73 | `C73_networks_once` | propext |
| C73 | `C73_networks_simulated` | propext, Quot.sound |
| C73 | `C73_networks_refused` | propext, Quot.sound |
| C73 | `C73_networks_ignored` | propext |
| C73 | `C73_names_are_cut` | propext, Quot.sound |
| C74 | `C74_arrive_in_order` | propext, Quot.sound |
| C74 | `C74_only_the_target` | propext, Classical.choice, Quot.sound |
| C74 | `C74_calls_in_order` | propext, Quot.sound |
| C74 | `C74_refused_without_subscription` | propext, Quot.sound |
| C74 | `C74_own_participant` | propext, Quot.sound |
| C74 | `C74_refusal_is_not_reported` | propext, Quot.sound |
| C74 | `C74_targeted_messages_are_repeated_to_others` | propext, Quot.sound |
| C75 | `C75_only_the_same_version` | propext, Classical.choice, Quot.sound |
| C75 | `C75_first_match` | propext, Classical.choice, Quot.sound |
| C75 | `C75_fails_without_match` | propext, Classical.choice, Quot.sound |
| C75 | `C75_same_extension_later` | propext, Classical.choice, Quot.sound |
| C75 | `C75_extensions_are_real` | propext, Classical.choice, Quot.sound |
| C75 | `C75_incomplete_library_hides_others` | propext, Classical.choice, Quot.sound |
| C75 | `C75_failed_constructor_is_undefined` | propext, Classical.choice, Quot.sound |
| C75 | `C75_missing_system_name_is_undefined` | propext, Classical.choice, Quot.sound |
| C75 | `C75_rejected_libraries_stay_open` | propext, Classical.choice, Quot.sound |
| C75 | `C75_unreadable_directory_fails` | propext, Classical.choice, Quot.sound |
| C76 | `C76_replaying_sent_frames_is_sending_them_partial` | propext, Quot.sound |
| C76 | `C76_go_to_sleep_is_replayed` | propext, Quot.sound |
| C76 | `C76_only_masters_replay` | propext |
| C76 | `C76_user_does_not_interfere` | propext |
| C76 | `C76_received_data_is_not_replayed` | propext, Quot.sound |
| C76 | `C76_nothing_is_replayed_after_sleep` | propext, Quot.sound |
| C76 | `C76_direction_is_ignored` | none |
| C76 | `C76_invalid_identifier_is_undefined_behaviour` | propext, Quot.sound |
| C77 | `C77_own_channel_is_replayed` | propext, Classical.choice, Quot.sound |
| C77 | `C77_selected_channel_is_replayed` | propext, Classical.choice, Quot.sound |
| C77 | `C77_pcap_files_are_for_ethernet` | propext, Quot.sound |
| C77 | `C77_no_replay_without_configuration` | propext |
| C77 | `C77_foreign_channel_breaks_creation` | propext, Quot.sound |
| C77 | `C77_incomplete_channel_breaks_creation` | propext, Quot.sound |
| C77 | `C77_names_with_slashes_are_not_found` | propext, Quot.sound |
| C77 | `C77_channel_of_another_is_replayed` | propext, Classical.choice, Quot.sound |
| C77 | `C77_selection_ignores_the_type` | propext, Classical.choice, Quot.sound |
| C77 | `C77_unknown_source_throws` | propext |
| C78 | `C78_header_is_reported_to_all_partial` | propext, Classical.choice, Quot.sound |
| C78 | `C78_first_header_is_reported_to_all` | propext, Classical.choice, Quot.sound |
| C78 | `C78_dynamic_slaves_are_known` | propext, Classical.choice, Quot.sound |
| C78 | `C78_dynamic_slave_gets_the_header` | propext, Classical.choice, Quot.sound |
| C78 | `C78_response_is_received_by_all` | propext, Classical.choice, Quot.sound |
| C78 | `C78_dynamic_controllers_receive_every_response` | propext, Classical.choice, Quot.sound |
| C78 | `C78_round_partial` | propext, Classical.choice, Quot.sound |
| C78 | `C78_response_is_never_rejected` | propext, Classical.choice, Quot.sound |
| C78 | `C78_counterexample_second_responder` | propext, Classical.choice, Quot.sound |
| C78 | `C78_counterexample_two_responses` | propext |
| C78 | `C78_counterexample_no_response_is_not_reported` | propext |
| C78 | `C78_counterexample_response_without_header` | propext |
| C78 | `C78_counterexample_rejected_response_counts` | propext |
| C79 | `C79_foreign_messages_are_ignored` | propext, Classical.choice, Quot.sound |
| C79 | `C79_unsupported_version_is_never_decoded` | propext, Classical.choice, Quot.sound |
| C79 | `C79_unsupported_version_is_told_partial` | propext, Classical.choice, Quot.sound |
| C79 | `C79_counterexample_unsupported_version_gets_no_answer` | propext, Classical.choice, Quot.sound |
| C79 | `C79_other_simulation_is_told` | propext, Classical.choice, Quot.sound |
| C79 | `C79_rejection_is_told` | propext, Classical.choice, Quot.sound |
| C79 | `C79_acceptance` | propext, Classical.choice, Quot.sound |
| C79 | `C79_30_announcement_is_understood_partial` | propext, Classical.choice, Quot.sound |
| C79 | `C79_counterexample_30_participants_lose_their_simulation` | propext, Classical.choice, Quot.sound |
| C79 | `C79_counterexample_rejection_of_30_is_acceptance` | propext, Classical.choice, Quot.sound |
| C79 | `C79_counterexample_30_reply_is_read_out_of_bounds` | propext, Classical.choice, Quot.sound |
| C79 | `C79_counterexample_30_known_participants_are_lost` | propext, Classical.choice, Quot.sound |
| C80 | `C80_dynamic_stepping_is_as_documented_partial` | propext, Classical.choice, Quot.sound |
| C80 | `C80_rule_is_definite` | propext, Quot.sound |
| C80 | `C80_next_call_repairs` | propext, Classical.choice, Quot.sound |
| C80 | `C80_setting_is_kept` | propext, Quot.sound |
| C80 | `C80_request_is_advertised` | propext, Classical.choice, Quot.sound |
| C80 | `C80_remote_request_is_logged_once` | propext, Classical.choice, Quot.sound |
| C80 | `C80_remote_request_is_logged_with_cause` | propext, Classical.choice, Quot.sound |
| C80 | `C80_counterexample_opt_out_is_lost` | propext, Quot.sound |
| C80 | `C80_counterexample_driver_is_lost` | propext, Quot.sound |
| C81 | `C81_unsupported_participant_stops_the_simulation` | propext, Classical.choice, Quot.sound |
| C81 | `C81_no_abort_without_cause` | propext, Quot.sound |
| C81 | `C81_others_do_not_abort` | propext, Quot.sound |
| C81 | `C81_only_synchronized_participants_count` | propext, Quot.sound |
| C81 | `C81_counterexample_unsynchronized_participant_aborts` | propext |
