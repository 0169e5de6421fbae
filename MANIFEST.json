{
 "claims": [
  {
   "property": "C01",
   "status": "proved",
   "theorems": [
    "Twink.C01_framing_split_independent"
   ],
   "note": ""
  },
  {
   "property": "C02",
   "status": "proved",
   "theorems": [
    "Twink.C02_recv_conserves_bytes",
    "Twink.C02_iterate_conserves_bytes"
   ],
   "note": ""
  },
  {
   "property": "C03",
   "status": "proved",
   "theorems": [
    "Twink.C03_delivery_is_exact",
    "Twink.C03_no_read_when_complete"
   ],
   "note": ""
  },
  {
   "property": "C04",
   "status": "proved",
   "theorems": [
    "Twink.C04_empty_reads_are_harmless"
   ],
   "note": ""
  },
  {
   "property": "C05",
   "status": "partial",
   "theorems": [
    "Twink.C05_refuted_fragment",
    "Twink.C05_refuted_zero_length",
    "Twink.C05_no_short_fragment_partial",
    "Twink.C05_exact"
   ],
   "note": "False of the code for announced lengths 0..7 (two refutations); proved when the header announces at least 8. C05_exact says what is returned for any announced length: that many bytes, the rest stays in the buffer, nothing is lost."
  },
  {
   "property": "C06",
   "status": "proved",
   "theorems": [
    "Twink.C06_bitmap_survives",
    "Twink.C06_old_versions",
    "Twink.C06_default",
    "Twink.C06_hello_domain"
   ],
   "note": ""
  },
  {
   "property": "C07",
   "status": "partial",
   "theorems": [
    "Twink.C07_hello_well_formed",
    "Twink.C07_alignment_partial",
    "Twink.C07_alignment_exact",
    "Twink.C07_alignment_refuted"
   ],
   "note": "The alignment clause is false for an even number of bitmap words (refutation); everything else proved; alignment proved for an odd number of words. C07_alignment_exact: alignment holds exactly for an odd number of words."
  },
  {
   "property": "C08",
   "status": "proved",
   "theorems": [
    "Twink.C08_negotiation",
    "Twink.C08_error_text",
    "Twink.C08_other_messages",
    "Twink.C08_unknown_version_note"
   ],
   "note": ""
  },
  {
   "property": "C09",
   "status": "partial",
   "theorems": [
    "Twink.C09_agreement_partial",
    "Twink.C09_exact",
    "Twink.C09_refuted"
   ],
   "note": "False in general (refutation: one end fails, the other carries on); proved: two ends that both select agree on the highest common version, and both succeed or both fail when each accepts a version >= 4. C09_exact says exactly what the two ends end with."
  },
  {
   "property": "C10",
   "status": "proved",
   "theorems": [
    "Twink.C10_hello_sent_exactly_once",
    "Twink.C10_no_hello_without_start",
    "Twink.C10_user_writes_are_no_handshake"
   ],
   "note": ""
  },
  {
   "property": "C11",
   "status": "proved",
   "theorems": [
    "Twink.C11_strictly_increasing",
    "Twink.C11_fits_32_bits",
    "Twink.C11_range_exact",
    "Twink.C11_one_id_per_call",
    "Twink.C11_readable"
   ],
   "note": ""
  },
  {
   "property": "C12",
   "status": "partial",
   "theorems": [
    "Twink.C12_refuted",
    "Twink.C12_refuted_later_call",
    "Twink.C12_serialized_partial",
    "Twink.C12_undisturbed_partial",
    "Twink.C12_overlap_refuted"
   ],
   "note": "False of the code: two interleaved callers obtain the same id (C12_refuted); from every state in which two threads are about to set the last id there is a continuation in which one id is returned twice (C12_overlap_refuted). Proved for non-overlapping calls, and more generally if nobody sets the last id while another thread is about to set it (C12_undisturbed_partial)."
  },
  {
   "property": "C13",
   "status": "proved",
   "theorems": [
    "Twink.C13_echo_step",
    "Twink.C13_echo_sequence",
    "Twink.C13_note_before_hello"
   ],
   "note": ""
  },
  {
   "property": "C14",
   "status": "proved",
   "theorems": [
    "Twink.C14_loop"
   ],
   "note": ""
  },
  {
   "property": "C15",
   "status": "proved",
   "theorems": [
    "Twink.C15_messages_in_call_order",
    "Twink.C15_insertions_are_fresh_barriers"
   ],
   "note": ""
  },
  {
   "property": "C16",
   "status": "proved",
   "theorems": [
    "Twink.C16_multiple_chunks_impossible",
    "Twink.C16_barrier_between_different_callbacks",
    "Twink.C16_barrier_between_callback_and_none"
   ],
   "note": ""
  },
  {
   "property": "C17",
   "status": "proved",
   "theorems": [
    "Twink.C17_replies_reach_their_callback",
    "Twink.C17_no_assertion"
   ],
   "note": ""
  },
  {
   "property": "C18",
   "status": "partial",
   "theorems": [
    "Twink.C18_refuted",
    "Twink.C18_busy_partial",
    "Twink.C18_no_callbacks_partial",
    "Twink.Outstanding.C18_exact",
    "Twink.Outstanding.C18_barrier_helps"
   ],
   "note": "False of the code (a callback-less message sent on an idle channel, followed by one with callback); proved when tracked work was outstanding at the send, and for channels where nobody passes callbacks. C18_exact: in every history, whatever the switch sends, a message goes to callback k exactly if k is referenced and was passed with a request outstanding before the first outstanding barrier request; C18_barrier_helps: a barrier request sent in between avoids the fault."
  },
  {
   "property": "C19",
   "status": "proved",
   "theorems": [
    "Twink.C19_barrier_reply",
    "Twink.Outstanding.C19_exact"
   ],
   "note": "C19_exact: the fate of every barrier reply by the outstanding requests."
  },
  {
   "property": "C20",
   "status": "proved",
   "theorems": [
    "Twink.C20_async_bypass",
    "Twink.C20_async_only"
   ],
   "note": ""
  },
  {
   "property": "C21",
   "status": "proved",
   "theorems": [
    "Twink.C21_features_reply",
    "Twink.C21_other_messages",
    "Twink.C21_short_features_reply"
   ],
   "note": ""
  },
  {
   "property": "C22",
   "status": "proved",
   "theorems": [
    "Twink.C22_own_reply",
    "Twink.C22_reply_returned"
   ],
   "note": "Safety for all interleavings without close, also with colliding ids; delivery with different outstanding ids."
  },
  {
   "property": "C23",
   "status": "proved",
   "theorems": [
    "Twink.C23_not_released_early",
    "Twink.C23_concatenation"
   ],
   "note": ""
  },
  {
   "property": "C24",
   "status": "partial",
   "theorems": [
    "Twink.C24_refuted",
    "Twink.C24_partial",
    "Twink.C24_single_partial"
   ],
   "note": "False of the code: a timeout in the middle of a multipart reply returns the fragments so far (refutation). Proved when the wait did not time out, and for non-multipart replies in every case."
  },
  {
   "property": "C25",
   "status": "partial",
   "theorems": [
    "Twink.AfterClose.C25_exact",
    "Twink.C25_released",
    "Twink.C25_empty_value_partial",
    "Twink.C25_refuted"
   ],
   "note": "Release proved in full. The returned value is empty only if the receiving thread processes no message for it after close (refutation with a buffered message). C25_exact: for all schedules without a second close, a request emptied by close returns the messages the receiving thread still stored for it (multipart replies joined), the empty value iff there were none."
  },
  {
   "property": "C26",
   "status": "partial",
   "theorems": [
    "Twink.C26_no_leak_partial",
    "Twink.C26_own_record_partial",
    "Twink.C26_refuted_send",
    "Twink.C26_refuted_barrier",
    "Twink.C26_refuted_duplicate",
    "Twink.Leak.C26_exact"
   ],
   "note": "False of the code when sending raises, when the barrier of multi fails and for colliding ids (three refutations). Proved: after all calls have returned nothing is registered; a returned send_sync leaves no record. C26_exact: if no id is registered twice, then, when all calls have ended, the ids still registered are exactly those of send_sync calls that could not send, of the messages that failed multi calls had registered, and of barriers that could not be sent."
  },
  {
   "property": "C27",
   "status": "proved",
   "theorems": [
    "Twink.C27_results",
    "Twink.C27_single",
    "Twink.C27_one_result_per_message"
   ],
   "note": "The window of messages counted for an entry may extend past the barrier reply up to the moment of collection."
  },
  {
   "property": "C28",
   "status": "partial",
   "theorems": [
    "Twink.C28_mirror_partial",
    "Twink.C28_features_partial",
    "Twink.C28_port_desc_partial",
    "Twink.C28_refuted_version5",
    "Twink.C28_exact",
    "Twink.C28_observed"
   ],
   "note": "Proved for OpenFlow 1.0-1.3 while nobody waits for a port. Refuted for OpenFlow 1.4: a FEATURES_REPLY empties the list. With a waiter see C31. C28_exact: any sequence of well-formed events is received without an exception if and only if a correct switch can produce it; C28_observed: if the user catches the exceptions, the list is what an observer sees that overlooks the contradicting events."
  },
  {
   "property": "C29",
   "status": "proved",
   "theorems": [
    "Twink.C29_rejected",
    "Twink.C29_exception_keeps_list",
    "Twink.C29_unique",
    "Twink.PortsCall.C29_ambiguous"
   ],
   "note": ""
  },
  {
   "property": "C30",
   "status": "partial",
   "theorems": [
    "Twink.C30_features_partial",
    "Twink.C30_port_desc_partial",
    "Twink.C30_port_status_partial",
    "Twink.C30_refuted_version5",
    "Twink.C30_refuted_version5_desc"
   ],
   "note": "Proved for OpenFlow 1.0-1.3 while nobody waits for a port. Refuted for OpenFlow 1.4: record size and field positions are wrong."
  },
  {
   "property": "C31",
   "status": "partial",
   "theorems": [
    "Twink.C31_refuted_attach",
    "Twink.C31_refuted_detach",
    "Twink.C31_attached_partial",
    "Twink.C31_detached_partial",
    "Twink.PortsCall.C31_version5_refuted"
   ],
   "note": "Refuted for every waiter and every matching event: Event.set(port) raises TypeError. Proved: immediate returns of wait_attach/wait_detach."
  },
  {
   "property": "C32",
   "status": "partial",
   "theorems": [
    "Twink.Exact3.C32_exact",
    "Twink.C32_monitors_partial",
    "Twink.C32_refuted_write",
    "Twink.C32_refuted_hello",
    "Twink.C32_whole_partial"
   ],
   "note": "False of the code when a write to a monitor fails or a second hello arrives: recv of the parent raises (two refutations). Proved for all histories in which writes to monitors succeed and no further hello arrives. C32_whole_partial says so for whole runs. C32_exact: written to the monitors up to the first that fails, handed on iff none fails; a hello iff not monitored or the first."
  },
  {
   "property": "C33",
   "status": "proved",
   "theorems": [
    "Twink.C33_requests_forwarded",
    "Twink.C33_forwarding_succeeds",
    "Twink.C33_handled",
    "Twink.C33_delivered",
    "Twink.C33_own_replies"
   ],
   "note": ""
  },
  {
   "property": "C34",
   "status": "proved",
   "theorems": [
    "Twink.C34_recv",
    "Twink.C34_iteration",
    "Twink.C34_no_transport_read",
    "Twink.C34_ended"
   ],
   "note": "Closed channel: recv, iteration, no read of the transport; an iteration counts as ended just if recv returned nothing."
  },
  {
   "property": "C35",
   "status": "partial",
   "theorems": [
    "Twink.C35_started_partial",
    "Twink.C35_once_partial",
    "Twink.C35_refuted_limit",
    "Twink.C35_refuted_once",
    "Twink.C35_refuted_mixed",
    "Twink.C35_refuted_zero",
    "Twink.C35_loops",
    "Twink.RateCalls.C35_calls_partial",
    "Twink.RateCalls.C35_last",
    "Twink.RateLimit.C35_unbounded_refuted"
   ],
   "note": "False of the code: the limit is not kept, late binding of the closure variables can call a task twice and another never or mix function and arguments of two tasks, limit 0 never runs anything (four refutations). Proved for all schedules: one thread per task, in order, none left behind; for schedules with promptly starting task threads: every task is called exactly once. C35_calls_partial: for all schedules, whatever a task thread calls consists of parts of submitted tasks, none submitted before its own; C35_last: so the thread of the last task always calls its own. C35_unbounded_refuted: with limit 1 any number of tasks can run at once."
  },
  {
   "property": "C36",
   "status": "partial",
   "theorems": [
    "Twink.Exact.C36_exact",
    "Twink.C36_values_partial",
    "Twink.C36_first_get_partial",
    "Twink.C36_not_before_partial",
    "Twink.C36_refuted"
   ],
   "note": "False of the code: a second get after an exception returns None instead of raising (refutation). Proved for functions that return a value, for the first get in all cases, and that get does not return before the function ends. C36_exact: all of n gets report the outcome iff it is a value or n ≤ 1."
  },
  {
   "property": "C37",
   "status": "proved",
   "theorems": [
    "Twink.C37_pack_accepts",
    "Twink.C37_pack_size",
    "Twink.C37_unpack_pack",
    "Twink.C37_unpack_fails",
    "Twink.C37_big_endian"
   ],
   "note": ""
  },
  {
   "property": "C38",
   "status": "proved",
   "theorems": [
    "Twink.Of13.C38_header",
    "Twink.Of13.C38_builds"
   ],
   "note": "For all twenty message builders, by the common function ofp_."
  },
  {
   "property": "C39",
   "status": "proved",
   "theorems": [
    "Twink.Of13.C39_match_layout",
    "Twink.Of13.C39_match_round_trip",
    "Twink.Of13.C39_match_builds"
   ],
   "note": ""
  },
  {
   "property": "C40",
   "status": "partial",
   "theorems": [
    "Twink.Of13.C40_actions_partial",
    "Twink.Of13.C40_actions_exact",
    "Twink.Of13.C40_instructions_partial",
    "Twink.Of13.C40_instructions_exact",
    "Twink.Of13.C40_set_field_refuted",
    "Twink.Of13.C40_mpls_ttl_refuted"
   ],
   "note": "False of the code for set-field/experimenter actions that need padding and for set-MPLS-TTL (refutations for all such actions). Proved: what comes back in every other case, and exact round trip when no padding is needed."
  },
  {
   "property": "C41",
   "status": "partial",
   "theorems": [
    "Twink.Of13.C41_flow_mod_partial",
    "Twink.Of13.C41_flow_mod_exact",
    "Twink.Of13.C41_flow_mod_refuted"
   ],
   "note": "False when an action needs padding (refutation); exact round trip proved otherwise."
  },
  {
   "property": "C42",
   "status": "partial",
   "theorems": [
    "Twink.Of13.C42_group_mod_partial",
    "Twink.Of13.C42_group_mod_exact",
    "Twink.Of13.C42_meter_mod_partial",
    "Twink.Of13.C42_meter_mod_refuted"
   ],
   "note": "METER_MOD with an experimenter band makes the parser loop forever (refutation for all such messages); exact round trip proved otherwise."
  },
  {
   "property": "C43",
   "status": "partial",
   "theorems": [
    "Twink.Of13.C43_packet_in",
    "Twink.Of13.C43_flow_removed",
    "Twink.Of13.C43_packet_out_partial",
    "Twink.Of13.C43_packet_out_exact",
    "Twink.Of13.C43_packet_out_refuted"
   ],
   "note": "PACKET_IN and FLOW_REMOVED in full; PACKET_OUT is false when an action needs padding (refutation), proved otherwise."
  },
  {
   "property": "C44",
   "status": "partial",
   "theorems": [
    "Twink.Of13.C44_hello",
    "Twink.Of13.C44_error",
    "Twink.Of13.C44_features",
    "Twink.Of13.C44_config",
    "Twink.Of13.C44_table_mod",
    "Twink.Of13.C44_port_status_partial",
    "Twink.Of13.C44_role_request",
    "Twink.Of13.C44_async",
    "Twink.Of13.C44_queue_request",
    "Twink.Of13.C44_port_mod_refuted"
   ],
   "note": "PORT_MOD can never be parsed (refutation for all arguments); port names come back as Unicode up to the first NUL; all others proved in full."
  },
  {
   "property": "C45",
   "status": "partial",
   "theorems": [
    "Twink.Of13.C45_request_empty",
    "Twink.Of13.C45_request_partial",
    "Twink.Of13.C45_request_experimenter",
    "Twink.Of13.C45_reply_one_partial",
    "Twink.Of13.C45_reply_list_partial",
    "Twink.Of13.C45_reply_experimenter",
    "Twink.Of13.C45_port_stats_refuted",
    "Twink.Of13.C45_desc_refuted",
    "Twink.Of13.C45_aggregate_reply_refuted",
    "Twink.Of13.C45_aggregate_request_refuted"
   ],
   "note": "False for port statistics, descriptions shorter than their fields, aggregate requests and replies (refutations for all such arguments); everything else proved."
  },
  {
   "property": "C46",
   "status": "partial",
   "theorems": [
    "Twink.Of13.C46_packet_out_refuted",
    "Twink.Of13.C46_meter_mod_refuted",
    "Twink.Of13.C46_termination_partial",
    "Twink.Of13.C46_diverges_means_forever",
    "Twink.Of13.Reads.C46_exact"
   ],
   "note": "False of the code (two families of looping inputs). Proved: exactly (if and only if) which buffers make the parser loop, and that the model's divergence value corresponds to a loop that never ends."
  },
  {
   "property": "C47",
   "status": "partial",
   "theorems": [
    "Twink.Oxm.C47_layout_partial",
    "Twink.Oxm.C47_round_trip_partial",
    "Twink.Oxm.C47_labels_refuted",
    "Twink.Oxm.C47_rebuild",
    "Twink.Oxm.C47_terminates",
    "Twink.Oxm14.C47_field_numbers"
   ],
   "note": "Holds for all standard fields but IPV6_FLABEL and MPLS_LABEL, for which it is refuted. Also: building what was parsed gives back the same bytes, parse_list terminates on all inputs."
  },
  {
   "property": "C48",
   "status": "partial",
   "theorems": [
    "Twink.Ovs.C48_rendering",
    "Twink.Ovs.C48_unknown",
    "Twink.Ovs.C48_lossless_partial",
    "Twink.Ovs.C48_flag_value_refuted"
   ],
   "note": "Rendering in the documented form and rejection of unknown options proved; the rendering determines names and arguments if no argument is missing or empty (partial); refuted for flag values, which are ignored, and missing arguments."
  },
  {
   "property": "C49",
   "status": "proved",
   "theorems": [
    "Twink.Ovs.C49_one",
    "Twink.Ovs.C49_sent",
    "Twink.Ovs.C49_history"
   ],
   "note": "Proved for single messages and for every history of asynchronous messages and barrier-delimited traffic; see C49_history."
  },
  {
   "property": "C50",
   "status": "partial",
   "theorems": [
    "Twink.Agent.C50_contents",
    "Twink.Agent.C50_first_ports",
    "Twink.Agent.C50_exact",
    "Twink.Agent.C50_answers_partial",
    "Twink.Agent.C50_answered",
    "Twink.Agent.C50_ports_answered",
    "Twink.Agent.C50_many_ports_refuted",
    "Twink.Agent.C50_ghost_refuted",
    "Twink.Agent.C50_many_flows_refuted"
   ],
   "note": "C50_answers_partial: whenever the agent handles a message without raising, what it sends to the controller is exactly the one reply the request asks for, with id, type and length right. C50_answered / C50_ports_answered: features, config, role, description requests are always answered, port descriptions with up to 1023 well-formed ports. False with 1024 ports or 1170 flows (C50_many_ports_refuted, C50_many_flows_refuted) and after a failed add_port, which leaves a port that cannot be packed (C50_ghost_refuted). C50_contents: the bytes of the answers about features, configuration, role and description; C50_first_ports: the answer of a switch just started about its ports. C50_exact says exactly which messages are handled without an exception."
  },
  {
   "property": "C51",
   "status": "partial",
   "theorems": [
    "Twink.Agent.C51_adds_partial",
    "Twink.Agent.C51_answered_partial",
    "Twink.Agent.C51_delete_refuted",
    "Twink.Agent.C51_replace_refuted",
    "Twink.Agent.C51_cookie_refuted",
    "Twink.Agent.C51_filter_refuted"
   ],
   "note": "C51_adds_partial / C51_answered_partial: after any history whose flow mods are additions of pairwise different flows (library-built, distinct cookies), every flow statistics request is answered with exactly the flows an OpenFlow switch would hold. Missing: everything else, since the agent keys its table by cookie and ignores the command: deletes add a second flow (C51_delete_refuted), same-match adds do not replace (C51_replace_refuted), a known cookie raises (C51_cookie_refuted), the table filter of the request is ignored (C51_filter_refuted)."
  },
  {
   "property": "C52",
   "status": "proved",
   "theorems": [
    "Twink.Agent.C52_table",
    "Twink.Agent.C52_fresh",
    "Twink.Agent.C52_add",
    "Twink.Agent.C52_delete",
    "Twink.Agent.C52_first",
    "Twink.Agent.C52_says"
   ],
   "note": ""
  },
  {
   "property": "C53",
   "status": "partial",
   "theorems": [
    "Twink.Agent.C53_exact",
    "Twink.Agent.C53_received_exact",
    "Twink.Agent.C53_retry_refuted",
    "Twink.Agent.C53_view_partial",
    "Twink.Agent.C53_failed_add_refuted",
    "Twink.Agent.C53_failed_delete_refuted"
   ],
   "note": "C53_view_partial: if all calls of the port manager return normally, a controller that reads the port status messages has the agent's view of the ports. False after failed additions and deletions (C53_failed_add_refuted, C53_failed_delete_refuted). C53_exact says for any history, with exceptions or not, exactly when the controller has the agent's ports again; C53_received_exact says exactly when its recv raises no exception; a failed deletion that is tried again makes it raise AssertionError (C53_retry_refuted)."
  },
  {
   "property": "C54",
   "status": "partial",
   "theorems": [
    "Twink.Exact.C54_exact",
    "Twink.C54_refuted",
    "Twink.C54_async_partial"
   ],
   "note": "False of the code: unsolicited messages (without handle_async) are sent to the client whose request is outstanding (refutation). Proved for asynchronous messages when handle_async exists; see C33 for replies. C54_exact: which messages reach a client, by the requests outstanding, in every execution."
  },
  {
   "property": "C55",
   "status": "partial",
   "theorems": [
    "Twink.Of13.C55_queue_reply_partial",
    "Twink.Of13.C55_queue_properties_refuted",
    "Twink.Of13.C55_experimenter_refuted"
   ],
   "note": "False of the code for queues with properties and for every experimenter message (refutations); proved for queues without properties."
  },
  {
   "property": "C56",
   "status": "partial",
   "theorems": [
    "Twink.Of13.C56_layout",
    "Twink.Of13.C56_meter_stats_refuted",
    "Twink.Of13.C56_table_features_refuted",
    "Twink.Of13.C56_single_record_refuted"
   ],
   "note": "C56_layout covers all twenty message builders against a byte-by-byte transcription of the standard's structures. Refuted: the length of meter statistics is copied from the argument, and the numbering of table feature property types differs from the standard."
  },
  {
   "property": "C57",
   "status": "partial",
   "theorems": [
    "Twink.Oxm.C57_stratos_refuted",
    "Twink.Oxm.C57_nxm_parse_partial",
    "Twink.Oxm.C57_nxm_refuted",
    "Twink.Oxm.C57_stratos_parse_partial",
    "Twink.Oxm.C57_stratos_other_partial",
    "Twink.Oxm.C57_stratos_mask_refuted"
   ],
   "note": "Refuted: build_stratos raises for all arguments; NXM_1 fields break parse_list and are built with the wrong width; masked vendor fields of other types raise TypeError. Parsing of vendor fields with a number (against the radiotap table) and of unmasked other vendor fields is proved."
  },
  {
   "property": "C58",
   "status": "partial",
   "theorems": [
    "Twink.Exact3.C58_exact",
    "Twink.Ovs.C58_protocol_partial",
    "Twink.Ovs.C58_version5_refuted",
    "Twink.Ovs.C58_halts"
   ],
   "note": "Proved for OpenFlow 1.1 to 1.3; refuted for version 5, where IndexError is raised and no command runs. C58_exact: with -O and the right name iff the version is 2, 3 or 4; anything runs iff the version is known and at most 4."
  },
  {
   "property": "C59",
   "status": "proved",
   "theorems": [
    "Twink.Ovs.C59_collects"
   ],
   "note": "Proved for messages of at least a header, in any order and number."
  },
  {
   "property": "C60",
   "status": "partial",
   "theorems": [
    "Twink.Of13.C60_message_partial",
    "Twink.Of13.C60_port_refuted",
    "Twink.Of13.C60_port_desc_refuted",
    "Twink.Of13.C60_experimenter_refuted",
    "Twink.Of13.C60_aggregate_refuted"
   ],
   "note": "C60_message_partial: for every rebuildable call, parsing the built message and rebuilding from the parsed tuples gives the same bytes. Missing: calls outside Rebuildable; false for a port (C60_port_refuted, C60_port_desc_refuted: the name's padding), experimenter replies (C60_experimenter_refuted) and aggregate replies (C60_aggregate_refuted)."
  },
  {
   "property": "C61",
   "status": "partial",
   "theorems": [
    "Twink.Agent.C61_first_partial",
    "Twink.Agent.C61_one_action_partial",
    "Twink.Agent.C61_second_refuted",
    "Twink.Agent.C61_exception_refuted",
    "Twink.Agent.C61_outcome",
    "Twink.Agent.C61_exact"
   ],
   "note": "C61_first_partial: a packet-out handled without an exception is forwarded as its first action says. False for further actions, for no actions, and for reserved or unknown ports (C61_second_refuted, C61_exception_refuted). C61_outcome: the result in every case; C61_exact: forwarded as all actions say iff the first is an output to an existing port and no later action is an output to a port with a socket."
  },
  {
   "property": "C62",
   "status": "partial",
   "theorems": [
    "Twink.Agent.C62_valid_partial",
    "Twink.Agent.C62_below_local_partial",
    "Twink.Agent.C62_reserved_refuted",
    "Twink.Agent.C62_refused_partial",
    "Twink.Agent.C62_refusal_refuted",
    "Twink.Exact3.C62_exact"
   ],
   "note": "True for the first 0xfffffefe additions (C62_valid_partial); later numbers are reserved ones (C62_reserved_refuted) and numbers are never used again (C62_refusal_refuted). C62_exact: the number is 3 plus the additions attempted before, so valid iff these are at most 0xfffffefd."
  },
  {
   "property": "C63",
   "status": "partial",
   "theorems": [
    "Twink.Srv.C63_exact",
    "Twink.Srv.C63_unstarted",
    "Twink.Srv.C63_accepting_partial",
    "Twink.Srv.C63_refuted"
   ],
   "note": "False: if a client is gone before the hello is sent, the exception ends the accept loop and closes the socket (C63_refuted, from every state in which a hello is about to be sent). Proved for runs in which hellos can be sent and accept() raises nothing but timeouts. C63_unstarted: before start() nothing is accepted. C63_exact: started and not stopped, it listens iff accept() raised nothing but timeouts and every hello could be sent."
  },
  {
   "property": "C64",
   "status": "partial",
   "theorems": [
    "Twink.Srv.C64_exact",
    "Twink.Srv.C64_set",
    "Twink.Srv.C64_closed",
    "Twink.Srv.C64_ends_partial",
    "Twink.Srv.C64_refuted"
   ],
   "note": "False: if a handler raises something other than ChannelClose the channel is neither closed nor removed (C64_refuted). Proved: the set holds exactly the connections between registration and removal (C64_set), an ended connection is closed (C64_closed), and without such exceptions every ended loop is closed and forgotten (C64_ends_partial). C64_exact: in the set iff at work or an exception left the loop."
  },
  {
   "property": "C65",
   "status": "partial",
   "theorems": [
    "Twink.Srv.C65_exact",
    "Twink.Srv.C65_no_more_reads",
    "Twink.Srv.C65_returned",
    "Twink.Srv.C65_winds_down",
    "Twink.Srv.C65_at_rest",
    "Twink.Srv.C65_nothing_left_partial",
    "Twink.Srv.C65_raised_refuted",
    "Twink.Srv.C65_hello_refuted"
   ],
   "note": "Proved for all interleavings: no more reads, what stop() has closed when it returns, termination (accessibility of the step relation), the state at rest. False in one point: a connection whose handler raised stays in the set, and one whose hello could not be sent is never closed (C65_raised_refuted, C65_hello_refuted); C65_nothing_left_partial excludes both. C65_exact: at rest the set is empty iff no exception left a loop; all connections are closed and ended iff moreover every hello was sent."
  },
  {
   "property": "C66",
   "status": "partial",
   "theorems": [
    "Twink.Par.C66_once_partial",
    "Twink.Par.C66_prompt_partial",
    "Twink.Par.C66_receiver_lives",
    "Twink.Par.C66_failure_closes",
    "Twink.Par.C66_refuted",
    "Twink.Par.C66_rated",
    "Twink.Par.C66_headless_refuted",
    "Twink.Par.C66_count_partial"
   ],
   "note": "Proved for all schedules without async_rate; with async_rate for schedules in which the rate limiter's threads start promptly (C66_prompt_partial, by C35). With async_rate another schedule handles one message twice and another never (C66_refuted). Exceptions of handlers close the channel and never reach the receiving thread, for all schedules. C66_rated says which messages go to the rate limiter and which get their own thread; a message too short for a header kills the receiving thread when async_rate is set (C66_headless_refuted). C66_count_partial: for all rate limits and schedules, only received messages are handled, not more often than received, and at rest exactly as many calls as messages."
  },
  {
   "property": "C67",
   "status": "partial",
   "theorems": [
    "Twink.Par.C67_refuted",
    "Twink.Par.C67_partial",
    "Twink.Par.Order.C67_order",
    "Twink.Par.Order.C67_exact"
   ],
   "note": "False: every message has a thread of its own (C67_refuted). Proved for schedules in which a thread calls the handler before the next message is received. C67_order: without rate limit the messages are handled in the order in which their threads first run, once each; C67_exact: different messages are handled in the order of arrival iff the threads first run in the order of their start."
  },
  {
   "property": "C68",
   "status": "partial",
   "theorems": [
    "Twink.Exact.C68_exact",
    "Twink.C68_partial",
    "Twink.C68_loses_bytes_refuted",
    "Twink.C68_refuted"
   ],
   "note": "False: Channel.send ignores how much socket.send has accepted; every partial send loses bytes and the receiver gets messages nobody sent (C68_refuted, C68_loses_bytes_refuted). Proved end to end if every send is accepted as a whole or raises (C68_partial). C68_exact: the receiver gets precisely what was sent iff every send was whole or raised."
  },
  {
   "property": "C69",
   "status": "partial",
   "theorems": [
    "Twink.Of13.C69_flow_mod_partial",
    "Twink.Of13.C69_flow_stats_partial",
    "Twink.Of13.C69_bucket_partial",
    "Twink.Of13.C69_packet_out_partial",
    "Twink.Of13.C69_goto_refuted",
    "Twink.Of13.C69_bucket_refuted",
    "Twink.Of13.C69_packet_out_refuted"
   ],
   "note": "Proved for FLOW_MOD and flow statistics with their action instructions; for buckets and PACKET_OUT only an upper bound holds. False for instructions of fixed size (length ignored), buckets and PACKET_OUT (elements may overrun): witnesses."
  },
  {
   "property": "C70",
   "status": "partial",
   "theorems": [
    "Twink.Of14.C70_header_partial",
    "Twink.Of14.C70_builds",
    "Twink.Of14.C70_meter_mod_refuted",
    "Twink.Of14.C70_role_status_refuted",
    "Twink.Of14.C70_port_status_refuted"
   ],
   "note": "For every call of Spec/Of14Calls, i.e. all message builders of ofp5/build.py."
  },
  {
   "property": "C71",
   "status": "partial",
   "theorems": [
    "Twink.Of14.C71_actions_partial",
    "Twink.Of14.C71_actions_exact",
    "Twink.Of14.C71_instructions_partial",
    "Twink.Of14.C71_instructions_exact",
    "Twink.Of14.C71_buckets_partial",
    "Twink.Of14.C71_buckets_exact",
    "Twink.Of14.C71_set_field_refuted",
    "Twink.Of14.C71_mpls_ttl_refuted"
   ],
   "note": "Exact lists come back if no set-field or experimenter action needs padding; set-MPLS-TTL cannot be parsed."
  },
  {
   "property": "C72",
   "status": "partial",
   "theorems": [
    "Twink.Of14.C72_messages_partial",
    "Twink.Of14.C72_flow_mod_exact",
    "Twink.Of14.C72_packet_out_exact",
    "Twink.Of14.C72_group_mod_exact",
    "Twink.Of14.C72_unused_parsers",
    "Twink.Of14.C72_error_experimenter_refuted",
    "Twink.Of14.C72_role_refuted",
    "Twink.Of14.C72_role_status_refuted",
    "Twink.Of14.C72_table_status_refuted",
    "Twink.Of14.C72_port_mod_refuted",
    "Twink.Of14.C72_bundle_properties_refuted",
    "Twink.Of14.C72_bundle_add_properties_refuted",
    "Twink.Of14.C72_meter_mod_refuted",
    "Twink.Of14.C72_not_built_refuted"
   ],
   "note": "Round trip of all calls that are parseable (Call.Parseable), nested to any depth; refuted for experimenter errors, role, table status, port mod, bundle properties, meter mod, port status."
  },
  {
   "property": "C73",
   "status": "partial",
   "theorems": [
    "Twink.Of14.C73_properties_partial",
    "Twink.Of14.C73_not_built_refuted",
    "Twink.Of14.C73_eviction_refuted",
    "Twink.Of14.C73_async_refuted",
    "Twink.Of14.C73_port_stats_refuted",
    "Twink.Of14.C73_port_mod_refuted",
    "Twink.Of14.C73_port_refuted"
   ],
   "note": "Properties of the kinds that can be built and parsed; the others refuted one by one."
  },
  {
   "property": "C74",
   "status": "partial",
   "theorems": [
    "Twink.Of14.C74_requests_partial",
    "Twink.Of14.C74_replies_partial",
    "Twink.Of14.C74_unused_parsers",
    "Twink.Of14.C74_meter_request_refuted",
    "Twink.Of14.C74_not_built_refuted",
    "Twink.Of14.C74_statistics_refuted",
    "Twink.Of14.C74_port_description_refuted",
    "Twink.Of14.C74_aggregate_reply_refuted",
    "Twink.Of14.C74_desc_refuted",
    "Twink.Of14.C74_update_refuted",
    "Twink.Of14.C74_table_actions_refuted",
    "Twink.Of14.C74_next_tables_refuted"
   ],
   "note": "Requests and replies of the types that work; the others refuted type by type."
  },
  {
   "property": "C75",
   "status": "partial",
   "theorems": [
    "Twink.Of14.C75_packet_out_refuted",
    "Twink.Of14.C75_port_mod_refuted",
    "Twink.Of14.C75_built_port_mod_refuted",
    "Twink.Of14.C75_role_status_refuted",
    "Twink.Of14.C75_meter_mod_refuted",
    "Twink.Of14.C75_nested_refuted",
    "Twink.Of14.C75_termination_partial",
    "Twink.Of14.C75_diverges_means_forever",
    "Twink.Of14.Reads.C75_exact"
   ],
   "note": "False as stated: messages of several kinds, some built by the library, make the parser loop forever (families of witnesses). Proved: exactly (if and only if) which buffers make the parser loop, for all offsets and nestings, and that the listed causes are the only ones."
  },
  {
   "property": "C76",
   "status": "partial",
   "theorems": [
    "Twink.Of14.C76_layout_partial",
    "Twink.Of14.C76_table_status_refuted",
    "Twink.Of14.C76_port_refuted",
    "Twink.Of14.C76_flow_update_refuted",
    "Twink.Of14.C76_port_stats_experimenter_refuted",
    "Twink.Of14.C76_bundle_padding_refuted",
    "Twink.Of14.C76_headers_refuted",
    "Twink.Of14.C76_instruction_refuted",
    "Twink.Of14.C76_table_features_refuted",
    "Twink.Of14.C76_meter_stats_refuted"
   ],
   "note": "Proved for all calls that Call.Right admits; the excluded ones (TABLE_STATUS, ROLE_STATUS, ports with properties, flow updates, some paddings, copied lengths) are refuted."
  },
  {
   "property": "C77",
   "status": "partial",
   "theorems": [
    "Twink.Enum.C77_all_consistent",
    "Twink.Enum.C77_bundle_flags_refuted",
    "Twink.Enum.C77_constants",
    "Twink.Enum.C77_keys_values",
    "Twink.Enum.C77_name",
    "Twink.Enum.C77_name_of_constant",
    "Twink.Enum.C77_bitnames_partial",
    "Twink.Enum.C77_bitnames_injective_partial",
    "Twink.Enum.C77_bitnames_refuted"
   ],
   "note": "bitnames is proved for flags declared as bitshifts; it is refuted for flags declared as numbers (OFPBF), where it gives no names at all."
  },
  {
   "property": "C78",
   "status": "partial",
   "theorems": [
    "Twink.Enum.C78_of13_partial",
    "Twink.Enum.C78_of14_partial",
    "Twink.Enum.C78_discard_refuted",
    "Twink.Enum.C78_error_names_refuted"
   ],
   "note": "Proved for all constants of the standard except those listed in wrong13, missing13, wrong14, missing14, for which the actual value is proved. The tables of the standard are transcribed by hand from openflow.h."
  },
  {
   "property": "C79",
   "status": "partial",
   "theorems": [
    "Twink.Oxm14.C79_layout_partial",
    "Twink.Oxm14.C79_round_trip_partial",
    "Twink.Oxm14.C79_labels_refuted",
    "Twink.Oxm14.C79_rebuild",
    "Twink.Oxm14.C79_terminates",
    "Twink.Oxm14.C79_other_class",
    "Twink.Oxm14.C79_field_numbers_partial",
    "Twink.Oxm14.C79_pbb_uca_refuted"
   ],
   "note": "False of IPV6_FLABEL and MPLS_LABEL (one byte instead of four) and of the number of PBB_UCA; proved for all other fields. Rebuilding and termination hold for all bytes."
  },
  {
   "property": "C80",
   "status": "partial",
   "theorems": [
    "Twink.OfpTuple.C80_exact",
    "Twink.OfpTuple.C80_fields_partial",
    "Twink.OfpTuple.C80_options_refuted",
    "Twink.OfpTuple.C80_fragment_refuted",
    "Twink.OfpTuple.C80_bits_refuted",
    "Twink.OfpTuple.C80_snap_refuted",
    "Twink.OfpTuple.C80_total",
    "Twink.OfpTuple.C80_prefix"
   ],
   "note": "Proved for Ethernet II frames with or without one VLAN tag whose IPv4 header has no options and no congestion bits and is not a fragment, and ARP operations below 256; refuted for the rest and for 802.3 frames. Totality and dependence on the first 46 bytes hold for all byte strings. C80_exact: for all good Ethernet II frames, the fields are right iff there are no congestion bits, the ports are where the code looks, and an ARP operation has eight bits."
  },
  {
   "property": "C81",
   "status": "partial",
   "theorems": [
    "Twink.Helper.C81_names",
    "Twink.Helper.C81_named_partial",
    "Twink.Helper.C81_others",
    "Twink.Helper.C81_clean_partial",
    "Twink.Helper.C81_interleaved_partial",
    "Twink.Helper.C81_changed_refuted",
    "Twink.Helper.C81_path_refuted"
   ],
   "note": "Proved for switches that announce one datapath (or none, then one): exactly one file per started server, all files removed by close, also under any interleaving of small steps with the last close after the receiving loop. Refuted if the datapath changes. Names are injective and other files untouched in all cases."
  },
  {
   "property": "C82",
   "status": "partial",
   "theorems": [
    "Twink.Dgram.C82_first_round",
    "Twink.Dgram.C82_serves_refuted",
    "Twink.Dgram.C82_never_closed_refuted",
    "Twink.Dgram.C82_task",
    "Twink.Dgram.C82_register",
    "Twink.Dgram.C82_stopped_partial"
   ],
   "note": "The claim is refuted; proved instead that every run with at least one round ends with TypeError and handles nothing. C82_register: what registering a sender would do."
  },
  {
   "property": "C83",
   "status": "partial",
   "theorems": [
    "Twink.Logging.Sent.C83_delivered",
    "Twink.Logging.Sent.C83_sent_exact",
    "Twink.Logging.C83_lines",
    "Twink.Logging.C83_received",
    "Twink.Logging.C83_given",
    "Twink.Logging.C83_sent_partial",
    "Twink.Logging.C83_channel_partial",
    "Twink.Logging.C83_close_once_partial",
    "Twink.Logging.C83_close_once_refuted",
    "Twink.Logging.C83_sent_refuted"
   ],
   "note": "Received and given messages: proved for all call sequences. Sent messages: only if no send fails. One line per closing: proved for one thread, and for any number of threads with the lock of ParallelChannel; refuted without. C83_delivered: the transport gets exactly the messages whose send does not fail; C83_sent_exact: the log of sent messages is right iff no send failed."
  },
  {
   "property": "C84",
   "status": "partial",
   "theorems": [
    "Twink.Serve.C84_basic_partial",
    "Twink.Serve.C84_basic_iff",
    "Twink.Serve.C84_start_refuted",
    "Twink.Serve.C84_stop_refuted",
    "Twink.Serve.C84_gevent_partial"
   ],
   "note": "Exact condition proved (iff); refuted in general: a start that raises, or a stop that raises, leaves servers running."
  },
  {
   "property": "C85",
   "status": "partial",
   "theorems": [
    "Twink.Serve.C85_switches_refuted",
    "Twink.Serve.C85_no_effect_partial",
    "Twink.Serve.C85_attributes"
   ],
   "note": "The claim is refuted (local variable); proved that the call has no effect, and which attributes sched has."
  },
  {
   "property": "C86",
   "status": "partial",
   "theorems": [
    "Twink.Of14.C86_message_partial",
    "Twink.Of14.C86_request_forward_refuted",
    "Twink.Of14.C86_bundle_refuted",
    "Twink.Of14.C86_table_mod_refuted",
    "Twink.Of14.C86_table_features_refuted",
    "Twink.Of14.C86_request_refuted",
    "Twink.Of14.C86_reply_refuted",
    "Twink.Of14.C86_meter_mod_refuted",
    "Twink.Of14.C86_port_mod_refuted"
   ],
   "note": "Proved for every message of the library that comes back as itself (and three kinds that come back as others but are rebuilt identically). Refuted for REQUESTFORWARD, bundles with it, TABLE_MOD, table features, some requests and replies, METER_MOD and PORT_MOD."
  },
  {
   "property": "C87",
   "status": "partial",
   "theorems": [
    "Twink.Cord.C87_partial",
    "Twink.Cord.C87_port3_refuted",
    "Twink.Cord.C87_exact",
    "Twink.Cord.C87_exact_ip",
    "Twink.Cord.C87_exact_arp"
   ],
   "note": "Full statement in the comment of C87_partial. Missing: packets from port 3 when match modules without default gate use gate 0; there it is false (C87_port3_refuted), as the Python script gives the rule of table 3 to t0_inport. What the modules of BESS do is an assumption (Model/Cord.lean). C87_exact, C87_exact_ip, C87_exact_arp: exactly which packets are treated differently."
  },
  {
   "property": "C88",
   "status": "partial",
   "theorems": [
    "Twink.Cord.C88_settled",
    "Twink.Cord.C88_partial",
    "Twink.Cord.C88_tag_refuted",
    "Twink.Cord.C88_set_refuted",
    "Twink.Cord.C88_default_refuted",
    "Twink.Cord.C88_chance_refuted",
    "Twink.Cord.C88_fragment_refuted",
    "Twink.Cord.C88_ipv6_refuted"
   ],
   "note": "Full statement in the comment of C88_partial. It is false for tagged frames without DEI bit, for rewritten addresses, for types other than IPv4 that look like it, first fragments and IPv6, and if match modules without default gate drop (the _refuted theorems). C88_settled shows that the entries leave no choice but that of the bucket."
  },
  {
   "property": "C89",
   "status": "partial",
   "theorems": [
    "Twink.Cord.C89_run",
    "Twink.Cord.C89_run_refuted",
    "Twink.Cord.C89_ends",
    "Twink.Cord.C89_tunnel",
    "Twink.Cord.C89_unchanged"
   ],
   "note": "False if BESS rejects byte strings of another size than their field (C89_run_refuted); otherwise proved for all packets."
  },
  {
   "property": "C90",
   "status": "partial",
   "theorems": [
    "Twink.Hub.C90_back",
    "Twink.Hub.C90_out",
    "Twink.Hub.C90_reach",
    "Twink.Hub.C90_group",
    "Twink.Hub.C90_newport_refuted",
    "Twink.Hub.C90_multicast",
    "Twink.Hub.C90_before"
   ],
   "note": "Proved for ports that the switch had when HELLO was handled; false for others (C90_newport_refuted)."
  },
  {
   "property": "C91",
   "status": "partial",
   "theorems": [
    "Twink.Hub.C91_partial",
    "Twink.Hub.C91_stale_refuted",
    "Twink.Hub.C91_moved_refuted",
    "Twink.Hub.C91_forgotten_refuted"
   ],
   "note": "Full statement in the comment of C91_partial. False for hosts that come back to a port, for threads that overtake each other (C91_moved_refuted, C91_stale_refuted) and after the entry of table 1 has expired (C91_forgotten_refuted)."
  },
  {
   "property": "C92",
   "status": "partial",
   "theorems": [
    "Twink.Session.C92_partial",
    "Twink.Session.C92_reply",
    "Twink.Session.C92_silent",
    "Twink.Session.C92_unanswered_refuted"
   ],
   "note": "Proved with exact bytes for messages the parser takes after a greeting of version 1.3; false for barrier, role, queue, asynchronous-mask and other multipart requests (C92_unanswered_refuted)."
  },
  {
   "property": "C93",
   "status": "partial",
   "theorems": [
    "Twink.Exact3.C93_exact",
    "Twink.Session.C93_agreed",
    "Twink.Session.C93_partial",
    "Twink.Session.C93_higher_refuted"
   ],
   "note": "Proved if 1.3 is the highest version of the controller; false if it also speaks a higher one (C93_higher_refuted). C93_exact: handled without exception iff the greeting's version is 1.3."
  },
  {
   "property": "C94",
   "status": "partial",
   "theorems": [
    "Twink.Of14.C94_flow_mod_partial",
    "Twink.Of14.C94_flow_stats_partial",
    "Twink.Of14.C94_bucket_partial",
    "Twink.Of14.C94_group_mod_partial",
    "Twink.Of14.C94_packet_out_partial",
    "Twink.Of14.C94_async_partial",
    "Twink.Of14.C94_bundle_add_partial",
    "Twink.Of14.C94_group_stats",
    "Twink.Of14.C94_meter_stats",
    "Twink.Of14.C94_group_desc_partial",
    "Twink.Of14.C94_forward_refuted",
    "Twink.Of14.C94_goto_refuted",
    "Twink.Of14.C94_bucket_refuted",
    "Twink.Of14.C94_packet_out_refuted",
    "Twink.Of14.C94_async_refuted"
   ],
   "note": "Exact for FLOW_MOD, flow, group and meter statistics and for the action lists of instructions; for buckets, GROUP_MOD, PACKET_OUT, asynchronous configuration and bundled messages only an upper bound holds. False for instructions of fixed size and forwarded requests (length ignored), for buckets, PACKET_OUT and asynchronous configuration (elements may overrun): witnesses."
  },
  {
   "property": "C95",
   "status": "partial",
   "theorems": [
    "Twink.Release.C95_size",
    "Twink.Release.C95_partial",
    "Twink.Release.C95_stale_refuted",
    "Twink.Release.C95_exact"
   ],
   "note": "C95_size bounds the records in every history. C95_partial: at rest at most one record is left, none if the last message sent was a barrier request. The full claim is false: C95_stale_refuted exhibits a callback that receives an unsolicited error after its request was answered. C95_exact: at rest some message is still given to a callback if and only if the callback is alive and the last thing written is its request, no barrier request."
  },
  {
   "property": "C96",
   "status": "partial",
   "theorems": [
    "Twink.Bound.C96_result",
    "Twink.Bound.C96_errors",
    "Twink.Bound.C96_type_partial",
    "Twink.Bound.C96_kinds",
    "Twink.Bound.C96_type_refuted",
    "Twink.Bound.C96_given_refuted",
    "Twink.Bound.C96_only_first_refuted"
   ],
   "note": "C96_result and C96_errors characterise the function completely; C96_type_partial gives the type when name resolution gives types. False in general: type 0 entries (C96_type_refuted), given sockets (C96_given_refuted), only the first address is tried (C96_only_first_refuted)."
  },
  {
   "property": "C97",
   "status": "partial",
   "theorems": [
    "Twink.Att.C97_first",
    "Twink.Att.C97_unattached",
    "Twink.Att.C97_messages_partial",
    "Twink.Att.C97_greeting_refuted",
    "Twink.Att.C97_mixed",
    "Twink.Att.C97_bytes_refuted",
    "Twink.Att.C97_version_refuted",
    "Twink.Att.C97_connections",
    "Twink.Exact3.C97_exact"
   ],
   "note": "C97_first: right for the first connection. C97_messages_partial: right messages if nothing is left of earlier connections. False otherwise: no greeting on later connections (C97_greeting_refuted, for all histories), left-over bytes are mixed in (C97_mixed, C97_bytes_refuted), the version stays (C97_version_refuted). C97_exact: starts afresh iff never started, no version known and no bytes left."
  },
  {
   "property": "C98",
   "status": "partial",
   "theorems": [
    "Twink.Simple.C98_request",
    "Twink.Simple.C98_reply",
    "Twink.Simple.C98_received",
    "Twink.Simple.C98_no_reply",
    "Twink.Simple.C98_multi",
    "Twink.Simple.C98_error_refuted"
   ],
   "note": "C98_request, C98_reply, C98_received, C98_no_reply, C98_multi. False for errors: C98_error_refuted holds for every message of another type."
  },
  {
   "property": "C99",
   "status": "partial",
   "theorems": [
    "Twink.Simple.C99_other",
    "Twink.Simple.C99_awaited",
    "Twink.Simple.C99_causes",
    "Twink.Simple.C99_race_refuted",
    "Twink.Simple.C99_short_refuted"
   ],
   "note": "C99_other and C99_awaited say what receiving does; C99_causes lists all causes of exceptions in every run. False: C99_race_refuted, C99_short_refuted."
  },
  {
   "property": "C100",
   "status": "partial",
   "theorems": [
    "Twink.PortsCall.C100_requests",
    "Twink.PortsCall.C100_result_partial",
    "Twink.PortsCall.C100_known",
    "Twink.PortsCall.C100_no_version",
    "Twink.PortsCall.C100_timeout_refuted",
    "Twink.PortsCall.C100_close_refuted",
    "Twink.PortsCall.C100_parts_refuted",
    "Twink.PortsCall.C100_same_id_refuted"
   ],
   "note": "C100_requests, C100_known, C100_no_version, C100_result_partial (versions 1.0-1.3, replies of one part, nobody closes). False otherwise: C100_timeout_refuted, C100_close_refuted, C100_parts_refuted, C100_same_id_refuted."
  },
  {
   "property": "C101",
   "status": "proved",
   "theorems": [
    "Twink.Position.C101_position13",
    "Twink.Position.C101_position14",
    "Twink.Position.C101_cursor14",
    "Twink.Position.C101_fields"
   ],
   "note": "Proved without conditions for 1.3, 1.4 (with the cursor, nested messages included) and oxm fields and lists."
  },
  {
   "property": "C102",
   "status": "partial",
   "theorems": [
    "Twink.Position.C102_following13_partial",
    "Twink.Position.C102_following14_partial",
    "Twink.Position.C102_stream13_partial",
    "Twink.Position.C102_following13_refuted",
    "Twink.Position.C102_refused13_refuted",
    "Twink.Position.C102_following14_refuted"
   ],
   "note": "Proved for the types whose parser checks or bounds where it ends; refuted with witnesses for the others (flow removed, packet out, group modification, flow statistics requests; 1.4 packet out, table features) and for messages refused when alone."
  },
  {
   "property": "C103",
   "status": "partial",
   "theorems": [
    "Twink.Wrap.C103_nested_partial",
    "Twink.Wrap.C103_outermost_partial",
    "Twink.Wrap.C103_threads_refuted",
    "Twink.Wrap.C103_again_refuted",
    "Twink.Wrap.Threads.C103_exact"
   ],
   "note": "Proved for one thread with properly nested blocks, and for a block around all others; false for overlapping blocks of several threads and for an object used inside its own block. C103_exact: for all interleavings of blocks of several threads, the channel ends with the wrapper it had iff the block left last was entered when it had that wrapper, and so on backwards."
  },
  {
   "property": "C104",
   "status": "proved",
   "theorems": [
    "Twink.Bitmap.C104_from_bitmap",
    "Twink.Bitmap.C104_agree13",
    "Twink.Bitmap.C104_agree14",
    "Twink.Bitmap.C104_greeting13",
    "Twink.Bitmap.C104_greeting14",
    "Twink.Bitmap.C104_other",
    "Twink.Bitmap.C104_built13",
    "Twink.Bitmap.C104_built14"
   ],
   "note": "Proved in full; the converse of agreement is not claimed (an example shows that it fails)."
  },
  {
   "property": "C105",
   "status": "proved",
   "theorems": [
    "Twink.Srv.C105_bytes",
    "Twink.Srv.C105_messages",
    "Twink.Srv.C105_all"
   ],
   "note": "Proved in full for the model of C63-C65."
  },
  {
   "property": "C106",
   "status": "partial",
   "theorems": [
    "Twink.Gets.C106_sound",
    "Twink.Gets.C106_someone",
    "Twink.Gets.C106_later",
    "Twink.Gets.C106_serial_partial",
    "Twink.Gets.C106_serial_ends",
    "Twink.Gets.C106_none_refuted",
    "Twink.Gets.C106_attribute_refuted",
    "Twink.Gets.C106_stuck_refuted",
    "Twink.Gets.C106_exit_refuted",
    "Twink.Gets.C106_refuted"
   ],
   "note": "The full claim is false (C106_refuted and four concrete ways). Proved for all schedules: soundness, at most one exception, calls after the value is stored; for calls that do not overlap: every call returns the value, and ends."
  },
  {
   "property": "C107",
   "status": "partial",
   "theorems": [
    "Twink.Mro.C107_order",
    "Twink.Mro.C107_layers",
    "Twink.Mro.C107_behind_refuted",
    "Twink.Mro.C107_inserted",
    "Twink.Mro.C107_reclose",
    "Twink.Mro.C107_attach_partial",
    "Twink.Mro.C107_attach_refuted",
    "Twink.Mro.C107_accepted"
   ],
   "note": "C107_order and C107_layers (__init__, send, recv, close) in full for layers derived from the root; C107_inserted: path of barrier requests added by ControllerChannel; C107_reclose: a second close. False for attach (C107_attach_refuted; C107_attach_partial says exactly which layers take part) and for layers behind the root (C107_behind_refuted). C107_accepted: a class statement is accepted if and only if some order without contradiction exists."
  },
  {
   "property": "C108",
   "status": "partial",
   "theorems": [
    "Twink.Layers.C108_exact",
    "Twink.Layers.C108_partial",
    "Twink.Layers.C108_refuted"
   ],
   "note": "C108_exact: answered if and only if not (ControllerChannel comes before AutoEchoChannel and a live callback is at the head of the bookkeeping); otherwise the callback gets the request. C108_partial: always answered if AutoEchoChannel comes first. C108_refuted: every class with the other order, after any request with a callback."
  },
  {
   "property": "C109",
   "status": "partial",
   "theorems": [
    "Twink.Layers.C109_handle",
    "Twink.Layers.C109_async_exact",
    "Twink.Layers.C109_partial",
    "Twink.Layers.C109_refuted"
   ],
   "note": "C109_handle: handle, for all classes. C109_async_exact: asynchronous messages are given to handle_async, outside the receiving thread if and only if ControllerChannel comes before ParallelChannel. C109_partial: both, for classes derived from ParentChannel, PortMonitorChannel or OvsChannel. C109_refuted: every class with the other order, e.g. (SyncChannel, ControllerChannel)."
  },
  {
   "property": "C110",
   "status": "partial",
   "theorems": [
    "Twink.Exact3.C110_exact",
    "Twink.Layers.C110_own",
    "Twink.Layers.C110_partial",
    "Twink.Layers.C110_behind_refuted",
    "Twink.Layers.C110_children"
   ],
   "note": "C110_own, C110_partial (classes derived from OpenflowServerChannel), C110_children in full; C110_behind_refuted: a handle behind OpenflowServerChannel is never called. A handle set as an attribute of the object is not modelled. C110_exact: called iff an ancestor and no class before it in the order has a handle."
  },
  {
   "property": "C111",
   "status": "partial",
   "theorems": [
    "Twink.Of13.C111_exact",
    "Twink.Of13.C111_structures",
    "Twink.Of13.C111_unbuildable_refuted",
    "Twink.Of13.C111_cut_refuted"
   ],
   "note": "C111_exact and C111_structures characterise success of every 1.3 builder; the statement fails for a few structures that the code refuses or cuts (refuted theorems), which Spec/Of13Fits lists as exceptions."
  },
  {
   "property": "C112",
   "status": "partial",
   "theorems": [
    "Twink.Of14.C112_exact",
    "Twink.Of14.C112_structures",
    "Twink.Of14.C112_standard",
    "Twink.Of14.C112_unbuildable_refuted",
    "Twink.Of14.C112_meter_header_refuted",
    "Twink.Of14.C112_role_status_refuted"
   ],
   "note": "`C112_exact` is an equivalence: which calls return, and exactly what. The `_refuted` theorems name what fits the standard but cannot be built, and what can be built though it should not."
  },
  {
   "property": "C113",
   "status": "partial",
   "theorems": [
    "Twink.Of13.Reads.C113_exact",
    "Twink.Of13.Reads.C113_exception",
    "Twink.Of13.Reads.C113_structures",
    "Twink.Of13.Reads.C113_names",
    "Twink.Of13.Reads.C113_one",
    "Twink.Of13.Reads.C113_messages_refuted",
    "Twink.Of13.Reads.C113_mpls_ttl_refuted",
    "Twink.Of13.Reads.C113_table_features_refuted",
    "Twink.Of13.Reads.C113_queue_properties_refuted",
    "Twink.Of13.Reads.C113_port_stats_refuted"
   ],
   "note": "Equivalence of the parser with a grammar of the wire format, for values, for divergence (also C46_exact) and for exceptions. Partial because the standard has structures that the code never reads (refuted theorems)."
  },
  {
   "property": "C114",
   "status": "partial",
   "theorems": [
    "Twink.Of14.Reads.C114_exact",
    "Twink.Of14.Reads.C114_cursor",
    "Twink.Of14.Reads.C114_exception",
    "Twink.Of14.Reads.C114_structures",
    "Twink.Of14.Reads.C114_one",
    "Twink.Of14.Reads.C114_status_refuted",
    "Twink.Of14.Reads.C114_port_refuted",
    "Twink.Of14.Reads.C114_mpls_ttl_refuted",
    "Twink.Of14.Reads.C114_features_refuted",
    "Twink.Of14.Reads.C114_multipart_refuted",
    "Twink.Of14.Reads.C114_port_mod_refuted",
    "Twink.Of14.Reads.C114_bundle_refuted"
   ],
   "note": "Equivalence of the parser with a grammar of the wire format, for values and ends, for divergence (also C75_exact) and for exceptions. Partial because the standard has structures that the code never reads (refuted theorems)."
  },
  {
   "property": "C115",
   "status": "partial",
   "theorems": [
    "Twink.BessSide.C115_exact_init",
    "Twink.BessSide.C115_exact_deinit",
    "Twink.BessSide.C115_exact",
    "Twink.BessSide.C115_partial",
    "Twink.BessSide.C115_refuted",
    "Twink.BessSide.C115_stuck"
   ],
   "note": "C115_partial: every history in which only handled failures occur leaves the workers running. C115_exact, C115_exact_init, C115_exact_deinit: they are stopped iff paused and not resumed, iff the function raises after the pause was carried out. C115_refuted: create_module is called outside the try, its failure leaves the workers stopped. C115_stuck: after that no further call about the same device resumes them. Partial because the full statement is false of the code."
  },
  {
   "property": "C116",
   "status": "partial",
   "theorems": [
    "Twink.BessSide.C116_partial",
    "Twink.BessSide.C116_refuted",
    "Twink.BessSide.C116_vxlan_refuted",
    "Twink.BessSide.C116_sound",
    "Twink.BessSide.C116_poisoned"
   ],
   "note": "C116_partial: without failures, for names not in use, adding and deleting restores the daemon and the list of ports. C116_sound: the hypothesis on the daemon always holds. C116_refuted: one failed connect leaves the auxiliary port behind. C116_vxlan_refuted: for 'vxlan' it is left behind without any failure. C116_poisoned: once left behind, it stays in every later history, and the device never gets a socket again. Partial because the full statement is false of the code."
  },
  {
   "property": "C117",
   "status": "partial",
   "theorems": [
    "Twink.BessSide.C117_partial",
    "Twink.BessSide.C117_packet_out_partial",
    "Twink.BessSide.C117_vxlan_refuted",
    "Twink.BessSide.C117_refuted",
    "Twink.BessSide.C117_names"
   ],
   "note": "C117_partial: for devices with plain names and deletions without failures, whatever fails during set-up and additions, each socket of a listed port other than 'vxlan' leads to the device of its name and nowhere else; C117_packet_out_partial: end to end for a packet-out message. C117_vxlan_refuted: what is sent to the port 'vxlan' leaves nowhere. C117_refuted: after a deletion that failed the port stays listed with its socket, which leads nowhere. Partial because the full statement is false of the code. C117_names pins the names used in the daemon."
  },
  {
   "property": "C118",
   "status": "partial",
   "theorems": [
    "Twink.Wired.C118_own_answer_partial",
    "Twink.Wired.C118_answered_partial",
    "Twink.Wired.C118_example_partial",
    "Twink.Wired.C118_example_answered_partial",
    "Twink.Wired.C118_agent_partial",
    "Twink.Wired.C118_unanswered_refuted",
    "Twink.Wired.C118_dead_refuted",
    "Twink.Wired.C118_reused_refuted",
    "Twink.Wired.C118_status_refuted"
   ],
   "note": "Partial because false in general: a request with the id of a call that timed out gets the late reply to that call (C118_reused_refuted); a request with id 0 gets the port status message of the software switch (C118_status_refuted); requests that the example switch ignores are never answered (C118_unanswered_refuted); after one message that the parser does not take nothing is answered any more (C118_dead_refuted)."
  },
  {
   "property": "C119",
   "status": "partial",
   "theorems": [
    "Twink.Wired.C119_never_refuted",
    "Twink.Wired.C119_both_refuted",
    "Twink.Wired.C119_handled_partial"
   ],
   "note": "Partial because false: neither switch answers barrier requests, so multi never returns, not even for no messages (C119_never_refuted, C119_both_refuted). What holds: while multi waits and nothing is on the way, the switch has handled every message (C119_handled_partial)."
  },
  {
   "property": "C120",
   "status": "partial",
   "theorems": [
    "Twink.Rule2.C120_results_partial",
    "Twink.Rule2.C120_error_partial",
    "Twink.Rule2.C120_raises_exact",
    "Twink.Rule2.C120_refused_refuted",
    "Twink.Rule2.C120_server_exact",
    "Twink.Rule2.C120_immortal_refuted",
    "Twink.Rule2.C120_stopped_partial",
    "Twink.Rule2.C120_returned_partial",
    "Twink.Rule2.C120_left_refuted",
    "Twink.Rule2.C120_works_partial",
    "Twink.Rule2.C120_wire",
    "Twink.Rule2.C120_names"
   ],
   "note": "C120_results_partial: whatever the interleaving, what is returned are the messages of all rules in order, one command per rule. C120_raises_exact and C120_server_exact say exactly which interleavings make it raise and which leave the server behind. The full claim is false: C120_refused_refuted (for every non-empty list of rules), C120_left_refuted and C120_immortal_refuted (for every list of rules the server may stay for ever). C120_wire and C120_names pin the messages and the command line."
  },
  {
   "property": "C121",
   "status": "partial",
   "theorems": [
    "Twink.Race.C121_exact",
    "Twink.Race.C121_partial",
    "Twink.Race.C121_stale_refuted",
    "Twink.Race.C121_lost_refuted",
    "Twink.Race.C121_dies_exact",
    "Twink.Race.C121_dies_refuted",
    "Twink.Race.C121_add_serial",
    "Twink.Race.C121_del_serial"
   ],
   "note": "C121_partial: if the last request was answered while the port manager was at rest the controller is right ever after. C121_exact says exactly when it is right in any interleaving, C121_dies_exact exactly when the thread of the connection ends by an exception. C121_add_serial and C121_del_serial tie the steps to the sequential model. The full claim is false: C121_stale_refuted, C121_lost_refuted, C121_dies_refuted, each from every state at rest."
  },
  {
   "property": "C122",
   "status": "partial",
   "theorems": [
    "Twink.Life.C122_exact",
    "Twink.Life.C122_answers_partial",
    "Twink.Life.C122_again_refuted",
    "Twink.Life.C122_twice_refuted",
    "Twink.Life.C122_calls_partial",
    "Twink.Life.C122_broken_refuted",
    "Twink.Life.C122_retry_refuted"
   ],
   "note": "C122_exact says exactly when the switch serves: an attempt succeeded after refused ones, no hang-up or cut since, and every message was one it survives with the tables it had then. C122_answers_partial: requests it survives are answered by exactly one right reply. C122_calls_partial: calls take effect as long as sends succeed. The full claim is false: C122_again_refuted (never connects again), C122_twice_refuted (a repeated flow mod is fatal), C122_broken_refuted (no port can be added properly or deleted without a connection), C122_retry_refuted (n failed additions leave n ports)."
  }
 ]
}