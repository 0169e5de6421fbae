# Axioms the theorems depend on

Generated by `tools/axioms.py` with `#print axioms`.

| property | theorem | axioms |
|---|---|---|
| C01 | `Twink.C01_framing_split_independent` | Quot.sound, propext |
| C02 | `Twink.C02_recv_conserves_bytes` | Quot.sound, propext |
| C02 | `Twink.C02_iterate_conserves_bytes` | Quot.sound, propext |
| C03 | `Twink.C03_delivery_is_exact` | Quot.sound, propext |
| C03 | `Twink.C03_no_read_when_complete` | Quot.sound, propext |
| C04 | `Twink.C04_empty_reads_are_harmless` | Quot.sound, propext |
| C05 | `Twink.C05_refuted_fragment` | Quot.sound, propext |
| C05 | `Twink.C05_refuted_zero_length` | Quot.sound, propext |
| C05 | `Twink.C05_no_short_fragment_partial` | Classical.choice, Quot.sound, propext |
| C05 | `Twink.C05_exact` | Quot.sound, propext |
| C06 | `Twink.C06_bitmap_survives` | Classical.choice, Quot.sound, propext |
| C06 | `Twink.C06_old_versions` | Classical.choice, Quot.sound, propext |
| C06 | `Twink.C06_default` | Classical.choice, Quot.sound, propext |
| C06 | `Twink.C06_hello_domain` | Classical.choice, Quot.sound, propext |
| C07 | `Twink.C07_hello_well_formed` | Classical.choice, Quot.sound, propext |
| C07 | `Twink.C07_alignment_partial` | Classical.choice, Quot.sound, propext |
| C07 | `Twink.C07_alignment_exact` | Classical.choice, Quot.sound, propext |
| C07 | `Twink.C07_alignment_refuted` | Quot.sound, propext |
| C08 | `Twink.C08_negotiation` | Classical.choice, Quot.sound, propext |
| C08 | `Twink.C08_error_text` | Classical.choice, Quot.sound, propext |
| C08 | `Twink.C08_other_messages` | Classical.choice, Quot.sound, propext |
| C08 | `Twink.C08_unknown_version_note` | Quot.sound, propext |
| C09 | `Twink.C09_agreement_partial` | Classical.choice, Quot.sound, propext |
| C09 | `Twink.C09_exact` | Classical.choice, Quot.sound, propext |
| C09 | `Twink.C09_refuted` | Quot.sound, propext |
| C10 | `Twink.C10_hello_sent_exactly_once` | Quot.sound, propext |
| C10 | `Twink.C10_no_hello_without_start` | Quot.sound, propext |
| C10 | `Twink.C10_user_writes_are_no_handshake` | Quot.sound, propext |
| C11 | `Twink.C11_strictly_increasing` | Quot.sound, propext |
| C11 | `Twink.C11_fits_32_bits` | Quot.sound, propext |
| C11 | `Twink.C11_range_exact` | Quot.sound, propext |
| C11 | `Twink.C11_one_id_per_call` | propext |
| C11 | `Twink.C11_readable` | Quot.sound, propext |
| C12 | `Twink.C12_refuted` | propext |
| C12 | `Twink.C12_refuted_later_call` | propext |
| C12 | `Twink.C12_serialized_partial` | Quot.sound, propext |
| C12 | `Twink.C12_undisturbed_partial` | Quot.sound, propext |
| C12 | `Twink.C12_overlap_refuted` | Quot.sound, propext |
| C13 | `Twink.C13_echo_step` | Classical.choice, Quot.sound, propext |
| C13 | `Twink.C13_echo_sequence` | Classical.choice, Quot.sound, propext |
| C13 | `Twink.C13_note_before_hello` | Classical.choice, Quot.sound, propext |
| C14 | `Twink.C14_loop` | Quot.sound, propext |
| C15 | `Twink.C15_messages_in_call_order` | Classical.choice, Quot.sound, propext |
| C15 | `Twink.C15_insertions_are_fresh_barriers` | Classical.choice, Quot.sound, propext |
| C16 | `Twink.C16_multiple_chunks_impossible` | Classical.choice, Quot.sound, propext |
| C16 | `Twink.C16_barrier_between_different_callbacks` | Classical.choice, Quot.sound, propext |
| C16 | `Twink.C16_barrier_between_callback_and_none` | Classical.choice, Quot.sound, propext |
| C17 | `Twink.C17_replies_reach_their_callback` | Classical.choice, Quot.sound, propext |
| C17 | `Twink.C17_no_assertion` | Classical.choice, Quot.sound, propext |
| C18 | `Twink.C18_refuted` | Classical.choice, Quot.sound, propext |
| C18 | `Twink.C18_busy_partial` | Classical.choice, Quot.sound, propext |
| C18 | `Twink.C18_no_callbacks_partial` | Classical.choice, Quot.sound, propext |
| C18 | `Twink.Outstanding.C18_exact` | Classical.choice, Quot.sound, propext |
| C18 | `Twink.Outstanding.C18_barrier_helps` | Classical.choice, Quot.sound, propext |
| C19 | `Twink.C19_barrier_reply` | Classical.choice, Quot.sound, propext |
| C19 | `Twink.Outstanding.C19_exact` | Classical.choice, Quot.sound, propext |
| C20 | `Twink.C20_async_bypass` | Classical.choice, Quot.sound, propext |
| C20 | `Twink.C20_async_only` | Classical.choice, Quot.sound, propext |
| C21 | `Twink.C21_features_reply` | Classical.choice, Quot.sound, propext |
| C21 | `Twink.C21_other_messages` | Classical.choice, Quot.sound, propext |
| C21 | `Twink.C21_short_features_reply` | Classical.choice, Quot.sound, propext |
| C22 | `Twink.C22_own_reply` | Classical.choice, Quot.sound, propext |
| C22 | `Twink.C22_reply_returned` | Classical.choice, Quot.sound, propext |
| C23 | `Twink.C23_not_released_early` | Classical.choice, Quot.sound, propext |
| C23 | `Twink.C23_concatenation` | Classical.choice, Quot.sound, propext |
| C24 | `Twink.C24_refuted` | Quot.sound, propext |
| C24 | `Twink.C24_partial` | Classical.choice, Quot.sound, propext |
| C24 | `Twink.C24_single_partial` | Classical.choice, Quot.sound, propext |
| C25 | `Twink.AfterClose.C25_exact` | Classical.choice, Quot.sound, propext |
| C25 | `Twink.C25_released` | Classical.choice, Quot.sound, propext |
| C25 | `Twink.C25_empty_value_partial` | Classical.choice, Quot.sound, propext |
| C25 | `Twink.C25_refuted` | propext |
| C26 | `Twink.C26_no_leak_partial` | Quot.sound, propext |
| C26 | `Twink.C26_own_record_partial` | Classical.choice, Quot.sound, propext |
| C26 | `Twink.C26_refuted_send` | propext |
| C26 | `Twink.C26_refuted_barrier` | propext |
| C26 | `Twink.C26_refuted_duplicate` | propext |
| C26 | `Twink.Leak.C26_exact` | Classical.choice, Quot.sound, propext |
| C27 | `Twink.C27_results` | Classical.choice, Quot.sound, propext |
| C27 | `Twink.C27_single` | Classical.choice, Quot.sound, propext |
| C27 | `Twink.C27_one_result_per_message` | Quot.sound, propext |
| C28 | `Twink.C28_mirror_partial` | Classical.choice, Quot.sound, propext |
| C28 | `Twink.C28_features_partial` | Classical.choice, Quot.sound, propext |
| C28 | `Twink.C28_port_desc_partial` | Classical.choice, Quot.sound, propext |
| C28 | `Twink.C28_refuted_version5` | Quot.sound, propext |
| C28 | `Twink.C28_exact` | Classical.choice, Quot.sound, propext |
| C28 | `Twink.C28_observed` | Classical.choice, Quot.sound, propext |
| C29 | `Twink.C29_rejected` | Classical.choice, Quot.sound, propext |
| C29 | `Twink.C29_exception_keeps_list` | Quot.sound, propext |
| C29 | `Twink.C29_unique` | Classical.choice, Quot.sound, propext |
| C29 | `Twink.PortsCall.C29_ambiguous` | Quot.sound, propext |
| C30 | `Twink.C30_features_partial` | Quot.sound, propext |
| C30 | `Twink.C30_port_desc_partial` | Classical.choice, Quot.sound, propext |
| C30 | `Twink.C30_port_status_partial` | Classical.choice, Quot.sound, propext |
| C30 | `Twink.C30_refuted_version5` | Quot.sound, propext |
| C30 | `Twink.C30_refuted_version5_desc` | Quot.sound, propext |
| C31 | `Twink.C31_refuted_attach` | Classical.choice, Quot.sound, propext |
| C31 | `Twink.C31_refuted_detach` | Classical.choice, Quot.sound, propext |
| C31 | `Twink.C31_attached_partial` | Quot.sound, propext |
| C31 | `Twink.C31_detached_partial` | Classical.choice, Quot.sound, propext |
| C31 | `Twink.PortsCall.C31_version5_refuted` | Quot.sound, propext |
| C32 | `Twink.Exact3.C32_exact` | Classical.choice, Quot.sound, propext |
| C32 | `Twink.C32_monitors_partial` | Classical.choice, Quot.sound, propext |
| C32 | `Twink.C32_refuted_write` | Classical.choice, Quot.sound, propext |
| C32 | `Twink.C32_refuted_hello` | Classical.choice, Quot.sound, propext |
| C32 | `Twink.C32_whole_partial` | Classical.choice, Quot.sound, propext |
| C33 | `Twink.C33_requests_forwarded` | Classical.choice, Quot.sound, propext |
| C33 | `Twink.C33_forwarding_succeeds` | Classical.choice, Quot.sound, propext |
| C33 | `Twink.C33_handled` | Classical.choice, Quot.sound, propext |
| C33 | `Twink.C33_delivered` | Classical.choice, Quot.sound, propext |
| C33 | `Twink.C33_own_replies` | Classical.choice, Quot.sound, propext |
| C34 | `Twink.C34_recv` | Classical.choice, Quot.sound, propext |
| C34 | `Twink.C34_iteration` | Classical.choice, Quot.sound, propext |
| C34 | `Twink.C34_no_transport_read` | Classical.choice, Quot.sound, propext |
| C34 | `Twink.C34_ended` | propext |
| C35 | `Twink.C35_started_partial` | Quot.sound, propext |
| C35 | `Twink.C35_once_partial` | Quot.sound, propext |
| C35 | `Twink.C35_refuted_limit` | Quot.sound, propext |
| C35 | `Twink.C35_refuted_once` | propext |
| C35 | `Twink.C35_refuted_mixed` | propext |
| C35 | `Twink.C35_refuted_zero` | Quot.sound, propext |
| C35 | `Twink.C35_loops` | Quot.sound, propext |
| C35 | `Twink.RateCalls.C35_calls_partial` | Classical.choice, Quot.sound, propext |
| C35 | `Twink.RateCalls.C35_last` | Classical.choice, Quot.sound, propext |
| C35 | `Twink.RateLimit.C35_unbounded_refuted` | Quot.sound, propext |
| C36 | `Twink.Exact.C36_exact` | Quot.sound, propext |
| C36 | `Twink.C36_values_partial` | propext |
| C36 | `Twink.C36_first_get_partial` | propext |
| C36 | `Twink.C36_not_before_partial` | propext |
| C36 | `Twink.C36_refuted` | propext |
| C37 | `Twink.C37_pack_accepts` | Classical.choice, Quot.sound, propext |
| C37 | `Twink.C37_pack_size` | Quot.sound, propext |
| C37 | `Twink.C37_unpack_pack` | Quot.sound, propext |
| C37 | `Twink.C37_unpack_fails` | Quot.sound, propext |
| C37 | `Twink.C37_big_endian` | Classical.choice, Quot.sound, propext |
| C38 | `Twink.Of13.C38_header` | Classical.choice, Quot.sound, propext |
| C38 | `Twink.Of13.C38_builds` | Classical.choice, Quot.sound, propext |
| C39 | `Twink.Of13.C39_match_layout` | Quot.sound, propext |
| C39 | `Twink.Of13.C39_match_round_trip` | Quot.sound, propext |
| C39 | `Twink.Of13.C39_match_builds` | Quot.sound, propext |
| C40 | `Twink.Of13.C40_actions_partial` | Quot.sound, propext |
| C40 | `Twink.Of13.C40_actions_exact` | Quot.sound, propext |
| C40 | `Twink.Of13.C40_instructions_partial` | Quot.sound, propext |
| C40 | `Twink.Of13.C40_instructions_exact` | Quot.sound, propext |
| C40 | `Twink.Of13.C40_set_field_refuted` | Quot.sound, propext |
| C40 | `Twink.Of13.C40_mpls_ttl_refuted` | Quot.sound, propext |
| C41 | `Twink.Of13.C41_flow_mod_partial` | Classical.choice, Quot.sound, propext |
| C41 | `Twink.Of13.C41_flow_mod_exact` | Classical.choice, Quot.sound, propext |
| C41 | `Twink.Of13.C41_flow_mod_refuted` | Classical.choice, Quot.sound, propext |
| C42 | `Twink.Of13.C42_group_mod_partial` | Classical.choice, Quot.sound, propext |
| C42 | `Twink.Of13.C42_group_mod_exact` | Classical.choice, Quot.sound, propext |
| C42 | `Twink.Of13.C42_meter_mod_partial` | Classical.choice, Quot.sound, propext |
| C42 | `Twink.Of13.C42_meter_mod_refuted` | Classical.choice, Quot.sound, propext |
| C43 | `Twink.Of13.C43_packet_in` | Classical.choice, Quot.sound, propext |
| C43 | `Twink.Of13.C43_flow_removed` | Classical.choice, Quot.sound, propext |
| C43 | `Twink.Of13.C43_packet_out_partial` | Classical.choice, Quot.sound, propext |
| C43 | `Twink.Of13.C43_packet_out_exact` | Classical.choice, Quot.sound, propext |
| C43 | `Twink.Of13.C43_packet_out_refuted` | Classical.choice, Quot.sound, propext |
| C44 | `Twink.Of13.C44_hello` | Classical.choice, Quot.sound, propext |
| C44 | `Twink.Of13.C44_error` | Classical.choice, Quot.sound, propext |
| C44 | `Twink.Of13.C44_features` | Classical.choice, Quot.sound, propext |
| C44 | `Twink.Of13.C44_config` | Classical.choice, Quot.sound, propext |
| C44 | `Twink.Of13.C44_table_mod` | Classical.choice, Quot.sound, propext |
| C44 | `Twink.Of13.C44_port_status_partial` | Classical.choice, Quot.sound, propext |
| C44 | `Twink.Of13.C44_role_request` | Classical.choice, Quot.sound, propext |
| C44 | `Twink.Of13.C44_async` | Classical.choice, Quot.sound, propext |
| C44 | `Twink.Of13.C44_queue_request` | Classical.choice, Quot.sound, propext |
| C44 | `Twink.Of13.C44_port_mod_refuted` | Classical.choice, Quot.sound, propext |
| C45 | `Twink.Of13.C45_request_empty` | Classical.choice, Quot.sound, propext |
| C45 | `Twink.Of13.C45_request_partial` | Classical.choice, Quot.sound, propext |
| C45 | `Twink.Of13.C45_request_experimenter` | Classical.choice, Quot.sound, propext |
| C45 | `Twink.Of13.C45_reply_one_partial` | Classical.choice, Quot.sound, propext |
| C45 | `Twink.Of13.C45_reply_list_partial` | Classical.choice, Quot.sound, propext |
| C45 | `Twink.Of13.C45_reply_experimenter` | Classical.choice, Quot.sound, propext |
| C45 | `Twink.Of13.C45_port_stats_refuted` | Classical.choice, Quot.sound, propext |
| C45 | `Twink.Of13.C45_desc_refuted` | Classical.choice, Quot.sound, propext |
| C45 | `Twink.Of13.C45_aggregate_reply_refuted` | Classical.choice, Quot.sound, propext |
| C45 | `Twink.Of13.C45_aggregate_request_refuted` | Quot.sound, propext |
| C46 | `Twink.Of13.C46_packet_out_refuted` | Classical.choice, Quot.sound, propext |
| C46 | `Twink.Of13.C46_meter_mod_refuted` | Classical.choice, Quot.sound, propext |
| C46 | `Twink.Of13.C46_termination_partial` | Classical.choice, Quot.sound, propext |
| C46 | `Twink.Of13.C46_diverges_means_forever` | Quot.sound, propext |
| C46 | `Twink.Of13.Reads.C46_exact` | Classical.choice, Quot.sound, propext |
| C47 | `Twink.Oxm.C47_layout_partial` | Classical.choice, Quot.sound, propext |
| C47 | `Twink.Oxm.C47_round_trip_partial` | Classical.choice, Quot.sound, propext |
| C47 | `Twink.Oxm.C47_labels_refuted` | Classical.choice, Quot.sound, propext |
| C47 | `Twink.Oxm.C47_rebuild` | Classical.choice, Quot.sound, propext |
| C47 | `Twink.Oxm.C47_terminates` | Quot.sound, propext |
| C47 | `Twink.Oxm14.C47_field_numbers` | Classical.choice, Quot.sound, propext |
| C48 | `Twink.Ovs.C48_rendering` | Classical.choice, Quot.sound, propext |
| C48 | `Twink.Ovs.C48_unknown` | Classical.choice, Quot.sound, propext |
| C48 | `Twink.Ovs.C48_lossless_partial` | Classical.choice, Quot.sound, propext |
| C48 | `Twink.Ovs.C48_flag_value_refuted` | Classical.choice, Quot.sound, propext |
| C49 | `Twink.Ovs.C49_one` | Classical.choice, Quot.sound, propext |
| C49 | `Twink.Ovs.C49_sent` | Classical.choice, Quot.sound, propext |
| C49 | `Twink.Ovs.C49_history` | Classical.choice, Quot.sound, propext |
| C50 | `Twink.Agent.C50_contents` | Classical.choice, Quot.sound, propext |
| C50 | `Twink.Agent.C50_first_ports` | Classical.choice, Quot.sound, propext |
| C50 | `Twink.Agent.C50_exact` | Classical.choice, Quot.sound, propext |
| C50 | `Twink.Agent.C50_answers_partial` | Classical.choice, Quot.sound, propext |
| C50 | `Twink.Agent.C50_answered` | Classical.choice, Quot.sound, propext |
| C50 | `Twink.Agent.C50_ports_answered` | Classical.choice, Quot.sound, propext |
| C50 | `Twink.Agent.C50_many_ports_refuted` | Classical.choice, Quot.sound, propext |
| C50 | `Twink.Agent.C50_ghost_refuted` | Classical.choice, Quot.sound, propext |
| C50 | `Twink.Agent.C50_many_flows_refuted` | Classical.choice, Quot.sound, propext |
| C51 | `Twink.Agent.C51_adds_partial` | Classical.choice, Quot.sound, propext |
| C51 | `Twink.Agent.C51_answered_partial` | Classical.choice, Quot.sound, propext |
| C51 | `Twink.Agent.C51_delete_refuted` | Classical.choice, Quot.sound, propext |
| C51 | `Twink.Agent.C51_replace_refuted` | Classical.choice, Quot.sound, propext |
| C51 | `Twink.Agent.C51_cookie_refuted` | Classical.choice, Quot.sound, propext |
| C51 | `Twink.Agent.C51_filter_refuted` | Classical.choice, Quot.sound, propext |
| C52 | `Twink.Agent.C52_table` | Classical.choice, Quot.sound, propext |
| C52 | `Twink.Agent.C52_fresh` | Classical.choice, Quot.sound, propext |
| C52 | `Twink.Agent.C52_add` | Classical.choice, Quot.sound, propext |
| C52 | `Twink.Agent.C52_delete` | Classical.choice, Quot.sound, propext |
| C52 | `Twink.Agent.C52_first` | Quot.sound, propext |
| C52 | `Twink.Agent.C52_says` | Classical.choice, Quot.sound, propext |
| C53 | `Twink.Agent.C53_exact` | Classical.choice, Quot.sound, propext |
| C53 | `Twink.Agent.C53_received_exact` | Classical.choice, Quot.sound, propext |
| C53 | `Twink.Agent.C53_retry_refuted` | Classical.choice, Quot.sound, propext |
| C53 | `Twink.Agent.C53_view_partial` | Classical.choice, Quot.sound, propext |
| C53 | `Twink.Agent.C53_failed_add_refuted` | Classical.choice, Quot.sound, propext |
| C53 | `Twink.Agent.C53_failed_delete_refuted` | Classical.choice, Quot.sound, propext |
| C54 | `Twink.Exact.C54_exact` | Classical.choice, Quot.sound, propext |
| C54 | `Twink.C54_refuted` | Quot.sound, propext |
| C54 | `Twink.C54_async_partial` | Classical.choice, Quot.sound, propext |
| C55 | `Twink.Of13.C55_queue_reply_partial` | Classical.choice, Quot.sound, propext |
| C55 | `Twink.Of13.C55_queue_properties_refuted` | Classical.choice, Quot.sound, propext |
| C55 | `Twink.Of13.C55_experimenter_refuted` | Classical.choice, Quot.sound, propext |
| C56 | `Twink.Of13.C56_layout` | Classical.choice, Quot.sound, propext |
| C56 | `Twink.Of13.C56_meter_stats_refuted` | Quot.sound, propext |
| C56 | `Twink.Of13.C56_table_features_refuted` | Quot.sound, propext |
| C56 | `Twink.Of13.C56_single_record_refuted` | Classical.choice, Quot.sound, propext |
| C57 | `Twink.Oxm.C57_stratos_refuted` | Quot.sound, propext |
| C57 | `Twink.Oxm.C57_nxm_parse_partial` | Quot.sound, propext |
| C57 | `Twink.Oxm.C57_nxm_refuted` | Classical.choice, Quot.sound, propext |
| C57 | `Twink.Oxm.C57_stratos_parse_partial` | Classical.choice, Quot.sound, propext |
| C57 | `Twink.Oxm.C57_stratos_other_partial` | Classical.choice, Quot.sound, propext |
| C57 | `Twink.Oxm.C57_stratos_mask_refuted` | Classical.choice, Quot.sound, propext |
| C58 | `Twink.Exact3.C58_exact` | Classical.choice, Quot.sound, propext |
| C58 | `Twink.Ovs.C58_protocol_partial` | Classical.choice, Quot.sound, propext |
| C58 | `Twink.Ovs.C58_version5_refuted` | Classical.choice, Quot.sound, propext |
| C58 | `Twink.Ovs.C58_halts` | Classical.choice, Quot.sound, propext |
| C59 | `Twink.Ovs.C59_collects` | Classical.choice, Quot.sound, propext |
| C60 | `Twink.Of13.C60_message_partial` | Classical.choice, Quot.sound, propext |
| C60 | `Twink.Of13.C60_port_refuted` | Classical.choice, Quot.sound, propext |
| C60 | `Twink.Of13.C60_port_desc_refuted` | Classical.choice, Quot.sound, propext |
| C60 | `Twink.Of13.C60_experimenter_refuted` | Classical.choice, Quot.sound, propext |
| C60 | `Twink.Of13.C60_aggregate_refuted` | Classical.choice, Quot.sound, propext |
| C61 | `Twink.Agent.C61_first_partial` | Classical.choice, Quot.sound, propext |
| C61 | `Twink.Agent.C61_one_action_partial` | Classical.choice, Quot.sound, propext |
| C61 | `Twink.Agent.C61_second_refuted` | Classical.choice, Quot.sound, propext |
| C61 | `Twink.Agent.C61_exception_refuted` | Classical.choice, Quot.sound, propext |
| C61 | `Twink.Agent.C61_outcome` | Classical.choice, Quot.sound, propext |
| C61 | `Twink.Agent.C61_exact` | Classical.choice, Quot.sound, propext |
| C62 | `Twink.Agent.C62_valid_partial` | Classical.choice, Quot.sound, propext |
| C62 | `Twink.Agent.C62_below_local_partial` | Classical.choice, Quot.sound, propext |
| C62 | `Twink.Agent.C62_reserved_refuted` | Classical.choice, Quot.sound, propext |
| C62 | `Twink.Agent.C62_refused_partial` | Quot.sound, propext |
| C62 | `Twink.Agent.C62_refusal_refuted` | Quot.sound, propext |
| C62 | `Twink.Exact3.C62_exact` | Classical.choice, Quot.sound, propext |
| C63 | `Twink.Srv.C63_exact` | Classical.choice, Quot.sound, propext |
| C63 | `Twink.Srv.C63_unstarted` | propext |
| C63 | `Twink.Srv.C63_accepting_partial` | Quot.sound, propext |
| C63 | `Twink.Srv.C63_refuted` | propext |
| C64 | `Twink.Srv.C64_exact` | Classical.choice, Quot.sound, propext |
| C64 | `Twink.Srv.C64_set` | Classical.choice, Quot.sound, propext |
| C64 | `Twink.Srv.C64_closed` | Classical.choice, Quot.sound, propext |
| C64 | `Twink.Srv.C64_ends_partial` | Classical.choice, Quot.sound, propext |
| C64 | `Twink.Srv.C64_refuted` | Classical.choice, Quot.sound, propext |
| C65 | `Twink.Srv.C65_exact` | Classical.choice, Quot.sound, propext |
| C65 | `Twink.Srv.C65_no_more_reads` | Classical.choice, Quot.sound, propext |
| C65 | `Twink.Srv.C65_returned` | Classical.choice, Quot.sound, propext |
| C65 | `Twink.Srv.C65_winds_down` | Classical.choice, Quot.sound, propext |
| C65 | `Twink.Srv.C65_at_rest` | Classical.choice, Quot.sound, propext |
| C65 | `Twink.Srv.C65_nothing_left_partial` | Classical.choice, Quot.sound, propext |
| C65 | `Twink.Srv.C65_raised_refuted` | propext |
| C65 | `Twink.Srv.C65_hello_refuted` | propext |
| C66 | `Twink.Par.C66_once_partial` | Classical.choice, Quot.sound, propext |
| C66 | `Twink.Par.C66_prompt_partial` | Quot.sound, propext |
| C66 | `Twink.Par.C66_receiver_lives` | Quot.sound, propext |
| C66 | `Twink.Par.C66_failure_closes` | Quot.sound, propext |
| C66 | `Twink.Par.C66_refuted` | Quot.sound, propext |
| C66 | `Twink.Par.C66_rated` | Classical.choice, Quot.sound, propext |
| C66 | `Twink.Par.C66_headless_refuted` | propext |
| C66 | `Twink.Par.C66_count_partial` | Classical.choice, Quot.sound, propext |
| C67 | `Twink.Par.C67_refuted` | Quot.sound, propext |
| C67 | `Twink.Par.C67_partial` | Quot.sound, propext |
| C67 | `Twink.Par.Order.C67_order` | Quot.sound, propext |
| C67 | `Twink.Par.Order.C67_exact` | Quot.sound, propext |
| C68 | `Twink.Exact.C68_exact` | Classical.choice, Quot.sound, propext |
| C68 | `Twink.C68_partial` | Quot.sound, propext |
| C68 | `Twink.C68_loses_bytes_refuted` | Classical.choice, Quot.sound, propext |
| C68 | `Twink.C68_refuted` | Quot.sound, propext |
| C69 | `Twink.Of13.C69_flow_mod_partial` | Quot.sound, propext |
| C69 | `Twink.Of13.C69_flow_stats_partial` | Quot.sound, propext |
| C69 | `Twink.Of13.C69_bucket_partial` | Quot.sound, propext |
| C69 | `Twink.Of13.C69_packet_out_partial` | Classical.choice, Quot.sound, propext |
| C69 | `Twink.Of13.C69_goto_refuted` | Quot.sound, propext |
| C69 | `Twink.Of13.C69_bucket_refuted` | Quot.sound, propext |
| C69 | `Twink.Of13.C69_packet_out_refuted` | Quot.sound, propext |
| C70 | `Twink.Of14.C70_header_partial` | Classical.choice, Quot.sound, propext |
| C70 | `Twink.Of14.C70_builds` | Classical.choice, Quot.sound, propext |
| C70 | `Twink.Of14.C70_meter_mod_refuted` | Classical.choice, Quot.sound, propext |
| C70 | `Twink.Of14.C70_role_status_refuted` | Classical.choice, Quot.sound, propext |
| C70 | `Twink.Of14.C70_port_status_refuted` | Quot.sound, propext |
| C71 | `Twink.Of14.C71_actions_partial` | Quot.sound, propext |
| C71 | `Twink.Of14.C71_actions_exact` | Quot.sound, propext |
| C71 | `Twink.Of14.C71_instructions_partial` | Quot.sound, propext |
| C71 | `Twink.Of14.C71_instructions_exact` | Quot.sound, propext |
| C71 | `Twink.Of14.C71_buckets_partial` | Quot.sound, propext |
| C71 | `Twink.Of14.C71_buckets_exact` | Quot.sound, propext |
| C71 | `Twink.Of14.C71_set_field_refuted` | Quot.sound, propext |
| C71 | `Twink.Of14.C71_mpls_ttl_refuted` | Quot.sound, propext |
| C72 | `Twink.Of14.C72_messages_partial` | Classical.choice, Quot.sound, propext |
| C72 | `Twink.Of14.C72_flow_mod_exact` | Classical.choice, Quot.sound, propext |
| C72 | `Twink.Of14.C72_packet_out_exact` | Classical.choice, Quot.sound, propext |
| C72 | `Twink.Of14.C72_group_mod_exact` | Classical.choice, Quot.sound, propext |
| C72 | `Twink.Of14.C72_unused_parsers` | Classical.choice, Quot.sound, propext |
| C72 | `Twink.Of14.C72_error_experimenter_refuted` | Classical.choice, Quot.sound, propext |
| C72 | `Twink.Of14.C72_role_refuted` | Classical.choice, Quot.sound, propext |
| C72 | `Twink.Of14.C72_role_status_refuted` | Classical.choice, Quot.sound, propext |
| C72 | `Twink.Of14.C72_table_status_refuted` | Classical.choice, Quot.sound, propext |
| C72 | `Twink.Of14.C72_port_mod_refuted` | Classical.choice, Quot.sound, propext |
| C72 | `Twink.Of14.C72_bundle_properties_refuted` | Classical.choice, Quot.sound, propext |
| C72 | `Twink.Of14.C72_bundle_add_properties_refuted` | Classical.choice, Quot.sound, propext |
| C72 | `Twink.Of14.C72_meter_mod_refuted` | Quot.sound, propext |
| C72 | `Twink.Of14.C72_not_built_refuted` | Quot.sound, propext |
| C73 | `Twink.Of14.C73_properties_partial` | Quot.sound, propext |
| C73 | `Twink.Of14.C73_not_built_refuted` | Quot.sound, propext |
| C73 | `Twink.Of14.C73_eviction_refuted` | Quot.sound, propext |
| C73 | `Twink.Of14.C73_async_refuted` | Classical.choice, Quot.sound, propext |
| C73 | `Twink.Of14.C73_port_stats_refuted` | Quot.sound, propext |
| C73 | `Twink.Of14.C73_port_mod_refuted` | Quot.sound, propext |
| C73 | `Twink.Of14.C73_port_refuted` | Quot.sound, propext |
| C74 | `Twink.Of14.C74_requests_partial` | Classical.choice, Quot.sound, propext |
| C74 | `Twink.Of14.C74_replies_partial` | Classical.choice, Quot.sound, propext |
| C74 | `Twink.Of14.C74_unused_parsers` | Quot.sound, propext |
| C74 | `Twink.Of14.C74_meter_request_refuted` | Classical.choice, Quot.sound, propext |
| C74 | `Twink.Of14.C74_not_built_refuted` | Classical.choice, Quot.sound, propext |
| C74 | `Twink.Of14.C74_statistics_refuted` | Classical.choice, Quot.sound, propext |
| C74 | `Twink.Of14.C74_port_description_refuted` | Classical.choice, Quot.sound, propext |
| C74 | `Twink.Of14.C74_aggregate_reply_refuted` | Classical.choice, Quot.sound, propext |
| C74 | `Twink.Of14.C74_desc_refuted` | Classical.choice, Quot.sound, propext |
| C74 | `Twink.Of14.C74_update_refuted` | Quot.sound, propext |
| C74 | `Twink.Of14.C74_table_actions_refuted` | Quot.sound, propext |
| C74 | `Twink.Of14.C74_next_tables_refuted` | Quot.sound, propext |
| C75 | `Twink.Of14.C75_packet_out_refuted` | Quot.sound, propext |
| C75 | `Twink.Of14.C75_port_mod_refuted` | Quot.sound, propext |
| C75 | `Twink.Of14.C75_built_port_mod_refuted` | Classical.choice, Quot.sound, propext |
| C75 | `Twink.Of14.C75_role_status_refuted` | Quot.sound, propext |
| C75 | `Twink.Of14.C75_meter_mod_refuted` | Classical.choice, Quot.sound, propext |
| C75 | `Twink.Of14.C75_nested_refuted` | Quot.sound, propext |
| C75 | `Twink.Of14.C75_termination_partial` | Classical.choice, Quot.sound, propext |
| C75 | `Twink.Of14.C75_diverges_means_forever` | Quot.sound, propext |
| C75 | `Twink.Of14.Reads.C75_exact` | Classical.choice, Quot.sound, propext |
| C76 | `Twink.Of14.C76_layout_partial` | Classical.choice, Quot.sound, propext |
| C76 | `Twink.Of14.C76_table_status_refuted` | Classical.choice, Quot.sound, propext |
| C76 | `Twink.Of14.C76_port_refuted` | Quot.sound, propext |
| C76 | `Twink.Of14.C76_flow_update_refuted` | Quot.sound, propext |
| C76 | `Twink.Of14.C76_port_stats_experimenter_refuted` | Quot.sound, propext |
| C76 | `Twink.Of14.C76_bundle_padding_refuted` | Classical.choice, Quot.sound, propext |
| C76 | `Twink.Of14.C76_headers_refuted` | Quot.sound, propext |
| C76 | `Twink.Of14.C76_instruction_refuted` | Quot.sound, propext |
| C76 | `Twink.Of14.C76_table_features_refuted` | Quot.sound, propext |
| C76 | `Twink.Of14.C76_meter_stats_refuted` | Quot.sound, propext |
| C77 | `Twink.Enum.C77_all_consistent` | Quot.sound, propext |
| C77 | `Twink.Enum.C77_bundle_flags_refuted` | Quot.sound, propext |
| C77 | `Twink.Enum.C77_constants` | Classical.choice, Quot.sound, propext |
| C77 | `Twink.Enum.C77_keys_values` | Quot.sound, propext |
| C77 | `Twink.Enum.C77_name` | Quot.sound, propext |
| C77 | `Twink.Enum.C77_name_of_constant` | Classical.choice, Quot.sound, propext |
| C77 | `Twink.Enum.C77_bitnames_partial` | Classical.choice, Quot.sound, propext |
| C77 | `Twink.Enum.C77_bitnames_injective_partial` | Classical.choice, Quot.sound, propext |
| C77 | `Twink.Enum.C77_bitnames_refuted` | propext |
| C78 | `Twink.Enum.C78_of13_partial` | Classical.choice, Quot.sound, propext |
| C78 | `Twink.Enum.C78_of14_partial` | Classical.choice, Quot.sound, propext |
| C78 | `Twink.Enum.C78_discard_refuted` | Classical.choice, Quot.sound, propext |
| C78 | `Twink.Enum.C78_error_names_refuted` | Quot.sound, propext |
| C79 | `Twink.Oxm14.C79_layout_partial` | Classical.choice, Quot.sound, propext |
| C79 | `Twink.Oxm14.C79_round_trip_partial` | Classical.choice, Quot.sound, propext |
| C79 | `Twink.Oxm14.C79_labels_refuted` | Classical.choice, Quot.sound, propext |
| C79 | `Twink.Oxm14.C79_rebuild` | Classical.choice, Quot.sound, propext |
| C79 | `Twink.Oxm14.C79_terminates` | Quot.sound, propext |
| C79 | `Twink.Oxm14.C79_other_class` | Classical.choice, Quot.sound, propext |
| C79 | `Twink.Oxm14.C79_field_numbers_partial` | Classical.choice, Quot.sound, propext |
| C79 | `Twink.Oxm14.C79_pbb_uca_refuted` | Classical.choice, Quot.sound, propext |
| C80 | `Twink.OfpTuple.C80_exact` | Classical.choice, Quot.sound, propext |
| C80 | `Twink.OfpTuple.C80_fields_partial` | Classical.choice, Quot.sound, propext |
| C80 | `Twink.OfpTuple.C80_options_refuted` | Classical.choice, Quot.sound, propext |
| C80 | `Twink.OfpTuple.C80_fragment_refuted` | Classical.choice, Quot.sound, propext |
| C80 | `Twink.OfpTuple.C80_bits_refuted` | Classical.choice, Quot.sound, propext |
| C80 | `Twink.OfpTuple.C80_snap_refuted` | Classical.choice, Quot.sound, propext |
| C80 | `Twink.OfpTuple.C80_total` | Classical.choice, Quot.sound, propext |
| C80 | `Twink.OfpTuple.C80_prefix` | Classical.choice, Quot.sound, propext |
| C81 | `Twink.Helper.C81_names` | Classical.choice, Quot.sound, propext |
| C81 | `Twink.Helper.C81_named_partial` | Classical.choice, Quot.sound, propext |
| C81 | `Twink.Helper.C81_others` | Classical.choice, Quot.sound, propext |
| C81 | `Twink.Helper.C81_clean_partial` | Classical.choice, Quot.sound, propext |
| C81 | `Twink.Helper.C81_interleaved_partial` | Classical.choice, Quot.sound, propext |
| C81 | `Twink.Helper.C81_changed_refuted` | Classical.choice, Quot.sound, propext |
| C81 | `Twink.Helper.C81_path_refuted` | Classical.choice, Quot.sound, propext |
| C82 | `Twink.Dgram.C82_first_round` | propext |
| C82 | `Twink.Dgram.C82_serves_refuted` | propext |
| C82 | `Twink.Dgram.C82_never_closed_refuted` | propext |
| C82 | `Twink.Dgram.C82_task` | propext |
| C82 | `Twink.Dgram.C82_register` | Quot.sound, propext |
| C82 | `Twink.Dgram.C82_stopped_partial` | propext |
| C83 | `Twink.Logging.Sent.C83_delivered` | Classical.choice, Quot.sound, propext |
| C83 | `Twink.Logging.Sent.C83_sent_exact` | Classical.choice, Quot.sound, propext |
| C83 | `Twink.Logging.C83_lines` | Quot.sound, propext |
| C83 | `Twink.Logging.C83_received` | Classical.choice, Quot.sound, propext |
| C83 | `Twink.Logging.C83_given` | Classical.choice, Quot.sound, propext |
| C83 | `Twink.Logging.C83_sent_partial` | Classical.choice, Quot.sound, propext |
| C83 | `Twink.Logging.C83_channel_partial` | Classical.choice, Quot.sound, propext |
| C83 | `Twink.Logging.C83_close_once_partial` | Classical.choice, Quot.sound, propext |
| C83 | `Twink.Logging.C83_close_once_refuted` | none |
| C83 | `Twink.Logging.C83_sent_refuted` | Classical.choice, Quot.sound, propext |
| C84 | `Twink.Serve.C84_basic_partial` | propext |
| C84 | `Twink.Serve.C84_basic_iff` | Classical.choice, Quot.sound, propext |
| C84 | `Twink.Serve.C84_start_refuted` | propext |
| C84 | `Twink.Serve.C84_stop_refuted` | propext |
| C84 | `Twink.Serve.C84_gevent_partial` | propext |
| C85 | `Twink.Serve.C85_switches_refuted` | propext |
| C85 | `Twink.Serve.C85_no_effect_partial` | propext |
| C85 | `Twink.Serve.C85_attributes` | Quot.sound, propext |
| C86 | `Twink.Of14.C86_message_partial` | Classical.choice, Quot.sound, propext |
| C86 | `Twink.Of14.C86_request_forward_refuted` | Classical.choice, Quot.sound, propext |
| C86 | `Twink.Of14.C86_bundle_refuted` | Classical.choice, Quot.sound, propext |
| C86 | `Twink.Of14.C86_table_mod_refuted` | Classical.choice, Quot.sound, propext |
| C86 | `Twink.Of14.C86_table_features_refuted` | Classical.choice, Quot.sound, propext |
| C86 | `Twink.Of14.C86_request_refuted` | Classical.choice, Quot.sound, propext |
| C86 | `Twink.Of14.C86_reply_refuted` | Classical.choice, Quot.sound, propext |
| C86 | `Twink.Of14.C86_meter_mod_refuted` | Quot.sound, propext |
| C86 | `Twink.Of14.C86_port_mod_refuted` | Classical.choice, Quot.sound, propext |
| C87 | `Twink.Cord.C87_partial` | Classical.choice, Quot.sound, propext |
| C87 | `Twink.Cord.C87_port3_refuted` | Classical.choice, Quot.sound, propext |
| C87 | `Twink.Cord.C87_exact` | Classical.choice, Quot.sound, propext |
| C87 | `Twink.Cord.C87_exact_ip` | Classical.choice, Quot.sound, propext |
| C87 | `Twink.Cord.C87_exact_arp` | Classical.choice, Quot.sound, propext |
| C88 | `Twink.Cord.C88_settled` | Quot.sound, propext |
| C88 | `Twink.Cord.C88_partial` | Classical.choice, Quot.sound, propext |
| C88 | `Twink.Cord.C88_tag_refuted` | Classical.choice, Quot.sound, propext |
| C88 | `Twink.Cord.C88_set_refuted` | Classical.choice, Quot.sound, propext |
| C88 | `Twink.Cord.C88_default_refuted` | Classical.choice, Quot.sound, propext |
| C88 | `Twink.Cord.C88_chance_refuted` | Classical.choice, Quot.sound, propext |
| C88 | `Twink.Cord.C88_fragment_refuted` | Classical.choice, Quot.sound, propext |
| C88 | `Twink.Cord.C88_ipv6_refuted` | Classical.choice, Quot.sound, propext |
| C89 | `Twink.Cord.C89_run` | Quot.sound, propext |
| C89 | `Twink.Cord.C89_run_refuted` | propext |
| C89 | `Twink.Cord.C89_ends` | Classical.choice, Quot.sound, propext |
| C89 | `Twink.Cord.C89_tunnel` | Classical.choice, Quot.sound, propext |
| C89 | `Twink.Cord.C89_unchanged` | Classical.choice, Quot.sound, propext |
| C90 | `Twink.Hub.C90_back` | Quot.sound, propext |
| C90 | `Twink.Hub.C90_out` | Quot.sound, propext |
| C90 | `Twink.Hub.C90_reach` | Quot.sound, propext |
| C90 | `Twink.Hub.C90_group` | Quot.sound, propext |
| C90 | `Twink.Hub.C90_newport_refuted` | Quot.sound, propext |
| C90 | `Twink.Hub.C90_multicast` | Classical.choice, Quot.sound, propext |
| C90 | `Twink.Hub.C90_before` | Classical.choice, Quot.sound, propext |
| C91 | `Twink.Hub.C91_partial` | Classical.choice, Quot.sound, propext |
| C91 | `Twink.Hub.C91_stale_refuted` | Classical.choice, Quot.sound, propext |
| C91 | `Twink.Hub.C91_moved_refuted` | Quot.sound, propext |
| C91 | `Twink.Hub.C91_forgotten_refuted` | Classical.choice, Quot.sound, propext |
| C92 | `Twink.Session.C92_partial` | Classical.choice, Quot.sound, propext |
| C92 | `Twink.Session.C92_reply` | Classical.choice, Quot.sound, propext |
| C92 | `Twink.Session.C92_silent` | propext |
| C92 | `Twink.Session.C92_unanswered_refuted` | propext |
| C93 | `Twink.Exact3.C93_exact` | Classical.choice, Quot.sound, propext |
| C93 | `Twink.Session.C93_agreed` | Classical.choice, Quot.sound, propext |
| C93 | `Twink.Session.C93_partial` | Classical.choice, Quot.sound, propext |
| C93 | `Twink.Session.C93_higher_refuted` | Classical.choice, Quot.sound, propext |
| C94 | `Twink.Of14.C94_flow_mod_partial` | Quot.sound, propext |
| C94 | `Twink.Of14.C94_flow_stats_partial` | Quot.sound, propext |
| C94 | `Twink.Of14.C94_bucket_partial` | Quot.sound, propext |
| C94 | `Twink.Of14.C94_group_mod_partial` | Quot.sound, propext |
| C94 | `Twink.Of14.C94_packet_out_partial` | Classical.choice, Quot.sound, propext |
| C94 | `Twink.Of14.C94_async_partial` | Quot.sound, propext |
| C94 | `Twink.Of14.C94_bundle_add_partial` | Quot.sound, propext |
| C94 | `Twink.Of14.C94_group_stats` | Quot.sound, propext |
| C94 | `Twink.Of14.C94_meter_stats` | Quot.sound, propext |
| C94 | `Twink.Of14.C94_group_desc_partial` | Quot.sound, propext |
| C94 | `Twink.Of14.C94_forward_refuted` | Quot.sound, propext |
| C94 | `Twink.Of14.C94_goto_refuted` | Quot.sound, propext |
| C94 | `Twink.Of14.C94_bucket_refuted` | Quot.sound, propext |
| C94 | `Twink.Of14.C94_packet_out_refuted` | Quot.sound, propext |
| C94 | `Twink.Of14.C94_async_refuted` | Quot.sound, propext |
| C95 | `Twink.Release.C95_size` | Classical.choice, Quot.sound, propext |
| C95 | `Twink.Release.C95_partial` | Classical.choice, Quot.sound, propext |
| C95 | `Twink.Release.C95_stale_refuted` | propext |
| C95 | `Twink.Release.C95_exact` | Classical.choice, Quot.sound, propext |
| C96 | `Twink.Bound.C96_result` | Classical.choice, Quot.sound, propext |
| C96 | `Twink.Bound.C96_errors` | Classical.choice, Quot.sound, propext |
| C96 | `Twink.Bound.C96_type_partial` | Classical.choice, Quot.sound, propext |
| C96 | `Twink.Bound.C96_kinds` | propext |
| C96 | `Twink.Bound.C96_type_refuted` | none |
| C96 | `Twink.Bound.C96_given_refuted` | none |
| C96 | `Twink.Bound.C96_only_first_refuted` | propext |
| C97 | `Twink.Att.C97_first` | Quot.sound, propext |
| C97 | `Twink.Att.C97_unattached` | Quot.sound, propext |
| C97 | `Twink.Att.C97_messages_partial` | Quot.sound, propext |
| C97 | `Twink.Att.C97_greeting_refuted` | Quot.sound, propext |
| C97 | `Twink.Att.C97_mixed` | Classical.choice, Quot.sound, propext |
| C97 | `Twink.Att.C97_bytes_refuted` | Quot.sound, propext |
| C97 | `Twink.Att.C97_version_refuted` | Quot.sound, propext |
| C97 | `Twink.Att.C97_connections` | Quot.sound, propext |
| C97 | `Twink.Exact3.C97_exact` | Quot.sound, propext |
| C98 | `Twink.Simple.C98_request` | Quot.sound, propext |
| C98 | `Twink.Simple.C98_reply` | Classical.choice, Quot.sound, propext |
| C98 | `Twink.Simple.C98_received` | Classical.choice, Quot.sound, propext |
| C98 | `Twink.Simple.C98_no_reply` | propext |
| C98 | `Twink.Simple.C98_multi` | propext |
| C98 | `Twink.Simple.C98_error_refuted` | Classical.choice, Quot.sound, propext |
| C99 | `Twink.Simple.C99_other` | Classical.choice, Quot.sound, propext |
| C99 | `Twink.Simple.C99_awaited` | Classical.choice, Quot.sound, propext |
| C99 | `Twink.Simple.C99_causes` | Classical.choice, Quot.sound, propext |
| C99 | `Twink.Simple.C99_race_refuted` | propext |
| C99 | `Twink.Simple.C99_short_refuted` | propext |
| C100 | `Twink.PortsCall.C100_requests` | Quot.sound, propext |
| C100 | `Twink.PortsCall.C100_result_partial` | Classical.choice, Quot.sound, propext |
| C100 | `Twink.PortsCall.C100_known` | Quot.sound, propext |
| C100 | `Twink.PortsCall.C100_no_version` | Quot.sound, propext |
| C100 | `Twink.PortsCall.C100_timeout_refuted` | Classical.choice, Quot.sound, propext |
| C100 | `Twink.PortsCall.C100_close_refuted` | Classical.choice, Quot.sound, propext |
| C100 | `Twink.PortsCall.C100_parts_refuted` | Quot.sound, propext |
| C100 | `Twink.PortsCall.C100_same_id_refuted` | Quot.sound, propext |
| C101 | `Twink.Position.C101_position13` | Quot.sound, propext |
| C101 | `Twink.Position.C101_position14` | Quot.sound, propext |
| C101 | `Twink.Position.C101_cursor14` | Quot.sound, propext |
| C101 | `Twink.Position.C101_fields` | Quot.sound, propext |
| C102 | `Twink.Position.C102_following13_partial` | Quot.sound, propext |
| C102 | `Twink.Position.C102_following14_partial` | Quot.sound, propext |
| C102 | `Twink.Position.C102_stream13_partial` | Quot.sound, propext |
| C102 | `Twink.Position.C102_following13_refuted` | Quot.sound, propext |
| C102 | `Twink.Position.C102_refused13_refuted` | Quot.sound, propext |
| C102 | `Twink.Position.C102_following14_refuted` | Quot.sound, propext |
| C103 | `Twink.Wrap.C103_nested_partial` | propext |
| C103 | `Twink.Wrap.C103_outermost_partial` | none |
| C103 | `Twink.Wrap.C103_threads_refuted` | propext |
| C103 | `Twink.Wrap.C103_again_refuted` | propext |
| C103 | `Twink.Wrap.Threads.C103_exact` | Classical.choice, Quot.sound, propext |
| C104 | `Twink.Bitmap.C104_from_bitmap` | Classical.choice, Quot.sound, propext |
| C104 | `Twink.Bitmap.C104_agree13` | Classical.choice, Quot.sound, propext |
| C104 | `Twink.Bitmap.C104_agree14` | Classical.choice, Quot.sound, propext |
| C104 | `Twink.Bitmap.C104_greeting13` | Classical.choice, Quot.sound, propext |
| C104 | `Twink.Bitmap.C104_greeting14` | Classical.choice, Quot.sound, propext |
| C104 | `Twink.Bitmap.C104_other` | Classical.choice, Quot.sound, propext |
| C104 | `Twink.Bitmap.C104_built13` | Classical.choice, Quot.sound, propext |
| C104 | `Twink.Bitmap.C104_built14` | Classical.choice, Quot.sound, propext |
| C105 | `Twink.Srv.C105_bytes` | Quot.sound, propext |
| C105 | `Twink.Srv.C105_messages` | Classical.choice, Quot.sound, propext |
| C105 | `Twink.Srv.C105_all` | Classical.choice, Quot.sound, propext |
| C106 | `Twink.Gets.C106_sound` | Quot.sound, propext |
| C106 | `Twink.Gets.C106_someone` | Quot.sound, propext |
| C106 | `Twink.Gets.C106_later` | Classical.choice, Quot.sound, propext |
| C106 | `Twink.Gets.C106_serial_partial` | Quot.sound, propext |
| C106 | `Twink.Gets.C106_serial_ends` | Quot.sound, propext |
| C106 | `Twink.Gets.C106_none_refuted` | propext |
| C106 | `Twink.Gets.C106_attribute_refuted` | propext |
| C106 | `Twink.Gets.C106_stuck_refuted` | propext |
| C106 | `Twink.Gets.C106_exit_refuted` | propext |
| C106 | `Twink.Gets.C106_refuted` | propext |
| C107 | `Twink.Mro.C107_order` | Quot.sound, propext |
| C107 | `Twink.Mro.C107_layers` | Quot.sound, propext |
| C107 | `Twink.Mro.C107_behind_refuted` | Quot.sound, propext |
| C107 | `Twink.Mro.C107_inserted` | Classical.choice, Quot.sound, propext |
| C107 | `Twink.Mro.C107_reclose` | Quot.sound, propext |
| C107 | `Twink.Mro.C107_attach_partial` | Quot.sound, propext |
| C107 | `Twink.Mro.C107_attach_refuted` | Classical.choice, Quot.sound, propext |
| C107 | `Twink.Mro.C107_accepted` | Classical.choice, Quot.sound, propext |
| C108 | `Twink.Layers.C108_exact` | Classical.choice, Quot.sound, propext |
| C108 | `Twink.Layers.C108_partial` | Classical.choice, Quot.sound, propext |
| C108 | `Twink.Layers.C108_refuted` | Classical.choice, Quot.sound, propext |
| C109 | `Twink.Layers.C109_handle` | Classical.choice, Quot.sound, propext |
| C109 | `Twink.Layers.C109_async_exact` | Classical.choice, Quot.sound, propext |
| C109 | `Twink.Layers.C109_partial` | Classical.choice, Quot.sound, propext |
| C109 | `Twink.Layers.C109_refuted` | Classical.choice, Quot.sound, propext |
| C110 | `Twink.Exact3.C110_exact` | Quot.sound, propext |
| C110 | `Twink.Layers.C110_own` | Quot.sound, propext |
| C110 | `Twink.Layers.C110_partial` | Quot.sound, propext |
| C110 | `Twink.Layers.C110_behind_refuted` | Quot.sound, propext |
| C110 | `Twink.Layers.C110_children` | propext |
| C111 | `Twink.Of13.C111_exact` | Classical.choice, Quot.sound, propext |
| C111 | `Twink.Of13.C111_structures` | Classical.choice, Quot.sound, propext |
| C111 | `Twink.Of13.C111_unbuildable_refuted` | Classical.choice, Quot.sound, propext |
| C111 | `Twink.Of13.C111_cut_refuted` | Classical.choice, Quot.sound, propext |
| C112 | `Twink.Of14.C112_exact` | Classical.choice, Quot.sound, propext |
| C112 | `Twink.Of14.C112_structures` | Classical.choice, Quot.sound, propext |
| C112 | `Twink.Of14.C112_standard` | Classical.choice, Quot.sound, propext |
| C112 | `Twink.Of14.C112_unbuildable_refuted` | Classical.choice, Quot.sound, propext |
| C112 | `Twink.Of14.C112_meter_header_refuted` | Classical.choice, Quot.sound, propext |
| C112 | `Twink.Of14.C112_role_status_refuted` | Classical.choice, Quot.sound, propext |
| C113 | `Twink.Of13.Reads.C113_exact` | Classical.choice, Quot.sound, propext |
| C113 | `Twink.Of13.Reads.C113_exception` | Classical.choice, Quot.sound, propext |
| C113 | `Twink.Of13.Reads.C113_structures` | Classical.choice, Quot.sound, propext |
| C113 | `Twink.Of13.Reads.C113_names` | Classical.choice, Quot.sound, propext |
| C113 | `Twink.Of13.Reads.C113_one` | Classical.choice, Quot.sound, propext |
| C113 | `Twink.Of13.Reads.C113_messages_refuted` | Classical.choice, Quot.sound, propext |
| C113 | `Twink.Of13.Reads.C113_mpls_ttl_refuted` | Classical.choice, Quot.sound, propext |
| C113 | `Twink.Of13.Reads.C113_table_features_refuted` | Classical.choice, Quot.sound, propext |
| C113 | `Twink.Of13.Reads.C113_queue_properties_refuted` | Classical.choice, Quot.sound, propext |
| C113 | `Twink.Of13.Reads.C113_port_stats_refuted` | Classical.choice, Quot.sound, propext |
| C114 | `Twink.Of14.Reads.C114_exact` | Classical.choice, Quot.sound, propext |
| C114 | `Twink.Of14.Reads.C114_cursor` | Classical.choice, Quot.sound, propext |
| C114 | `Twink.Of14.Reads.C114_exception` | Classical.choice, Quot.sound, propext |
| C114 | `Twink.Of14.Reads.C114_structures` | Classical.choice, Quot.sound, propext |
| C114 | `Twink.Of14.Reads.C114_one` | Classical.choice, Quot.sound, propext |
| C114 | `Twink.Of14.Reads.C114_status_refuted` | Classical.choice, Quot.sound, propext |
| C114 | `Twink.Of14.Reads.C114_port_refuted` | Classical.choice, Quot.sound, propext |
| C114 | `Twink.Of14.Reads.C114_mpls_ttl_refuted` | Classical.choice, Quot.sound, propext |
| C114 | `Twink.Of14.Reads.C114_features_refuted` | Classical.choice, Quot.sound, propext |
| C114 | `Twink.Of14.Reads.C114_multipart_refuted` | Classical.choice, Quot.sound, propext |
| C114 | `Twink.Of14.Reads.C114_port_mod_refuted` | Classical.choice, Quot.sound, propext |
| C114 | `Twink.Of14.Reads.C114_bundle_refuted` | Classical.choice, Quot.sound, propext |
| C115 | `Twink.BessSide.C115_exact_init` | Quot.sound, propext |
| C115 | `Twink.BessSide.C115_exact_deinit` | Quot.sound, propext |
| C115 | `Twink.BessSide.C115_exact` | Quot.sound, propext |
| C115 | `Twink.BessSide.C115_partial` | Quot.sound, propext |
| C115 | `Twink.BessSide.C115_refuted` | Quot.sound, propext |
| C115 | `Twink.BessSide.C115_stuck` | Classical.choice, Quot.sound, propext |
| C116 | `Twink.BessSide.C116_partial` | Classical.choice, Quot.sound, propext |
| C116 | `Twink.BessSide.C116_refuted` | Quot.sound, propext |
| C116 | `Twink.BessSide.C116_vxlan_refuted` | Quot.sound, propext |
| C116 | `Twink.BessSide.C116_sound` | Quot.sound, propext |
| C116 | `Twink.BessSide.C116_poisoned` | Classical.choice, Quot.sound, propext |
| C117 | `Twink.BessSide.C117_partial` | Classical.choice, Quot.sound, propext |
| C117 | `Twink.BessSide.C117_packet_out_partial` | Classical.choice, Quot.sound, propext |
| C117 | `Twink.BessSide.C117_vxlan_refuted` | propext |
| C117 | `Twink.BessSide.C117_refuted` | Quot.sound, propext |
| C117 | `Twink.BessSide.C117_names` | Classical.choice, Quot.sound, propext |
| C118 | `Twink.Wired.C118_own_answer_partial` | Classical.choice, Quot.sound, propext |
| C118 | `Twink.Wired.C118_answered_partial` | Classical.choice, Quot.sound, propext |
| C118 | `Twink.Wired.C118_example_partial` | Classical.choice, Quot.sound, propext |
| C118 | `Twink.Wired.C118_example_answered_partial` | Classical.choice, Quot.sound, propext |
| C118 | `Twink.Wired.C118_agent_partial` | Classical.choice, Quot.sound, propext |
| C118 | `Twink.Wired.C118_unanswered_refuted` | Classical.choice, Quot.sound, propext |
| C118 | `Twink.Wired.C118_dead_refuted` | Classical.choice, Quot.sound, propext |
| C118 | `Twink.Wired.C118_reused_refuted` | Quot.sound, propext |
| C118 | `Twink.Wired.C118_status_refuted` | Quot.sound, propext |
| C119 | `Twink.Wired.C119_never_refuted` | Classical.choice, Quot.sound, propext |
| C119 | `Twink.Wired.C119_both_refuted` | Classical.choice, Quot.sound, propext |
| C119 | `Twink.Wired.C119_handled_partial` | Classical.choice, Quot.sound, propext |
| C120 | `Twink.Rule2.C120_results_partial` | Classical.choice, Quot.sound, propext |
| C120 | `Twink.Rule2.C120_error_partial` | Classical.choice, Quot.sound, propext |
| C120 | `Twink.Rule2.C120_raises_exact` | Classical.choice, Quot.sound, propext |
| C120 | `Twink.Rule2.C120_refused_refuted` | Classical.choice, Quot.sound, propext |
| C120 | `Twink.Rule2.C120_server_exact` | Classical.choice, Quot.sound, propext |
| C120 | `Twink.Rule2.C120_immortal_refuted` | Classical.choice, Quot.sound, propext |
| C120 | `Twink.Rule2.C120_stopped_partial` | Classical.choice, Quot.sound, propext |
| C120 | `Twink.Rule2.C120_returned_partial` | Classical.choice, Quot.sound, propext |
| C120 | `Twink.Rule2.C120_left_refuted` | Classical.choice, Quot.sound, propext |
| C120 | `Twink.Rule2.C120_works_partial` | Classical.choice, Quot.sound, propext |
| C120 | `Twink.Rule2.C120_wire` | Quot.sound, propext |
| C120 | `Twink.Rule2.C120_names` | Classical.choice, Quot.sound, propext |
| C121 | `Twink.Race.C121_exact` | Classical.choice, Quot.sound, propext |
| C121 | `Twink.Race.C121_partial` | Classical.choice, Quot.sound, propext |
| C121 | `Twink.Race.C121_stale_refuted` | Classical.choice, Quot.sound, propext |
| C121 | `Twink.Race.C121_lost_refuted` | Classical.choice, Quot.sound, propext |
| C121 | `Twink.Race.C121_dies_exact` | Classical.choice, Quot.sound, propext |
| C121 | `Twink.Race.C121_dies_refuted` | Classical.choice, Quot.sound, propext |
| C121 | `Twink.Race.C121_add_serial` | Classical.choice, Quot.sound, propext |
| C121 | `Twink.Race.C121_del_serial` | Classical.choice, Quot.sound, propext |
| C122 | `Twink.Life.C122_exact` | Classical.choice, Quot.sound, propext |
| C122 | `Twink.Life.C122_answers_partial` | Classical.choice, Quot.sound, propext |
| C122 | `Twink.Life.C122_again_refuted` | Quot.sound, propext |
| C122 | `Twink.Life.C122_twice_refuted` | Classical.choice, Quot.sound, propext |
| C122 | `Twink.Life.C122_calls_partial` | Quot.sound, propext |
| C122 | `Twink.Life.C122_broken_refuted` | Quot.sound, propext |
| C122 | `Twink.Life.C122_retry_refuted` | Classical.choice, Quot.sound, propext |
