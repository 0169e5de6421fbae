{
 "C05": "False of the code for announced lengths 0..7 (two refutations); proved when the header announces at least 8. C05_exact says what is returned for any announced length: that many bytes, the rest stays in the buffer, nothing is lost.",
 "C07": "The alignment clause is false for an even number of bitmap words (refutation); everything else proved; alignment proved for an odd number of words. C07_alignment_exact: alignment holds exactly for an odd number of words.",
 "C09": "False in general (refutation: one end fails, the other carries on); proved: two ends that both select agree on the highest common version, and both succeed or both fail when each accepts a version >= 4. C09_exact says exactly what the two ends end with.",
 "C100": "C100_requests, C100_known, C100_no_version, C100_result_partial (versions 1.0-1.3, replies of one part, nobody closes). False otherwise: C100_timeout_refuted, C100_close_refuted, C100_parts_refuted, C100_same_id_refuted.",
 "C101": "Proved without conditions for 1.3, 1.4 (with the cursor, nested messages included) and oxm fields and lists.",
 "C102": "Proved for the types whose parser checks or bounds where it ends; refuted with witnesses for the others (flow removed, packet out, group modification, flow statistics requests; 1.4 packet out, table features) and for messages refused when alone.",
 "C103": "Proved for one thread with properly nested blocks, and for a block around all others; false for overlapping blocks of several threads and for an object used inside its own block. C103_exact: for all interleavings of blocks of several threads, the channel ends with the wrapper it had iff the block left last was entered when it had that wrapper, and so on backwards.",
 "C104": "Proved in full; the converse of agreement is not claimed (an example shows that it fails).",
 "C105": "Proved in full for the model of C63-C65.",
 "C106": "The full claim is false (C106_refuted and four concrete ways). Proved for all schedules: soundness, at most one exception, calls after the value is stored; for calls that do not overlap: every call returns the value, and ends.",
 "C107": "C107_order and C107_layers (__init__, send, recv, close) in full for layers derived from the root; C107_inserted: path of barrier requests added by ControllerChannel; C107_reclose: a second close. False for attach (C107_attach_refuted; C107_attach_partial says exactly which layers take part) and for layers behind the root (C107_behind_refuted). C107_accepted: a class statement is accepted if and only if some order without contradiction exists.",
 "C108": "C108_exact: answered if and only if not (ControllerChannel comes before AutoEchoChannel and a live callback is at the head of the bookkeeping); otherwise the callback gets the request. C108_partial: always answered if AutoEchoChannel comes first. C108_refuted: every class with the other order, after any request with a callback.",
 "C109": "C109_handle: handle, for all classes. C109_async_exact: asynchronous messages are given to handle_async, outside the receiving thread if and only if ControllerChannel comes before ParallelChannel. C109_partial: both, for classes derived from ParentChannel, PortMonitorChannel or OvsChannel. C109_refuted: every class with the other order, e.g. (SyncChannel, ControllerChannel).",
 "C110": "C110_own, C110_partial (classes derived from OpenflowServerChannel), C110_children in full; C110_behind_refuted: a handle behind OpenflowServerChannel is never called. A handle set as an attribute of the object is not modelled. C110_exact: called iff an ancestor and no class before it in the order has a handle.",
 "C111": "C111_exact and C111_structures characterise success of every 1.3 builder; the statement fails for a few structures that the code refuses or cuts (refuted theorems), which Spec/Of13Fits lists as exceptions.",
 "C112": "`C112_exact` is an equivalence: which calls return, and exactly what. The `_refuted` theorems name what fits the standard but cannot be built, and what can be built though it should not.",
 "C113": "Equivalence of the parser with a grammar of the wire format, for values, for divergence (also C46_exact) and for exceptions. Partial because the standard has structures that the code never reads (refuted theorems).",
 "C114": "Equivalence of the parser with a grammar of the wire format, for values and ends, for divergence (also C75_exact) and for exceptions. Partial because the standard has structures that the code never reads (refuted theorems).",
 "C115": "C115_partial: every history in which only handled failures occur leaves the workers running. C115_exact, C115_exact_init, C115_exact_deinit: they are stopped iff paused and not resumed, iff the function raises after the pause was carried out. C115_refuted: create_module is called outside the try, its failure leaves the workers stopped. C115_stuck: after that no further call about the same device resumes them. Partial because the full statement is false of the code.",
 "C116": "C116_partial: without failures, for names not in use, adding and deleting restores the daemon and the list of ports. C116_sound: the hypothesis on the daemon always holds. C116_refuted: one failed connect leaves the auxiliary port behind. C116_vxlan_refuted: for 'vxlan' it is left behind without any failure. C116_poisoned: once left behind, it stays in every later history, and the device never gets a socket again. Partial because the full statement is false of the code.",
 "C117": "C117_partial: for devices with plain names and deletions without failures, whatever fails during set-up and additions, each socket of a listed port other than 'vxlan' leads to the device of its name and nowhere else; C117_packet_out_partial: end to end for a packet-out message. C117_vxlan_refuted: what is sent to the port 'vxlan' leaves nowhere. C117_refuted: after a deletion that failed the port stays listed with its socket, which leads nowhere. Partial because the full statement is false of the code. C117_names pins the names used in the daemon.",
 "C118": "Partial because false in general: a request with the id of a call that timed out gets the late reply to that call (C118_reused_refuted); a request with id 0 gets the port status message of the software switch (C118_status_refuted); requests that the example switch ignores are never answered (C118_unanswered_refuted); after one message that the parser does not take nothing is answered any more (C118_dead_refuted).",
 "C119": "Partial because false: neither switch answers barrier requests, so multi never returns, not even for no messages (C119_never_refuted, C119_both_refuted). What holds: while multi waits and nothing is on the way, the switch has handled every message (C119_handled_partial).",
 "C12": "False of the code: two interleaved callers obtain the same id (C12_refuted); from every state in which two threads are about to set the last id there is a continuation in which one id is returned twice (C12_overlap_refuted). Proved for non-overlapping calls, and more generally if nobody sets the last id while another thread is about to set it (C12_undisturbed_partial).",
 "C120": "C120_results_partial: whatever the interleaving, what is returned are the messages of all rules in order, one command per rule. C120_raises_exact and C120_server_exact say exactly which interleavings make it raise and which leave the server behind. The full claim is false: C120_refused_refuted (for every non-empty list of rules), C120_left_refuted and C120_immortal_refuted (for every list of rules the server may stay for ever). C120_wire and C120_names pin the messages and the command line.",
 "C121": "C121_partial: if the last request was answered while the port manager was at rest the controller is right ever after. C121_exact says exactly when it is right in any interleaving, C121_dies_exact exactly when the thread of the connection ends by an exception. C121_add_serial and C121_del_serial tie the steps to the sequential model. The full claim is false: C121_stale_refuted, C121_lost_refuted, C121_dies_refuted, each from every state at rest.",
 "C122": "C122_exact says exactly when the switch serves: an attempt succeeded after refused ones, no hang-up or cut since, and every message was one it survives with the tables it had then. C122_answers_partial: requests it survives are answered by exactly one right reply. C122_calls_partial: calls take effect as long as sends succeed. The full claim is false: C122_again_refuted (never connects again), C122_twice_refuted (a repeated flow mod is fatal), C122_broken_refuted (no port can be added properly or deleted without a connection), C122_retry_refuted (n failed additions leave n ports).",
 "C18": "False of the code (a callback-less message sent on an idle channel, followed by one with callback); proved when tracked work was outstanding at the send, and for channels where nobody passes callbacks. C18_exact: in every history, whatever the switch sends, a message goes to callback k exactly if k is referenced and was passed with a request outstanding before the first outstanding barrier request; C18_barrier_helps: a barrier request sent in between avoids the fault.",
 "C19": "C19_exact: the fate of every barrier reply by the outstanding requests.",
 "C22": "Safety for all interleavings without close, also with colliding ids; delivery with different outstanding ids.",
 "C24": "False of the code: a timeout in the middle of a multipart reply returns the fragments so far (refutation). Proved when the wait did not time out, and for non-multipart replies in every case.",
 "C25": "Release proved in full. The returned value is empty only if the receiving thread processes no message for it after close (refutation with a buffered message). C25_exact: for all schedules without a second close, a request emptied by close returns the messages the receiving thread still stored for it (multipart replies joined), the empty value iff there were none.",
 "C26": "False of the code when sending raises, when the barrier of multi fails and for colliding ids (three refutations). Proved: after all calls have returned nothing is registered; a returned send_sync leaves no record. C26_exact: if no id is registered twice, then, when all calls have ended, the ids still registered are exactly those of send_sync calls that could not send, of the messages that failed multi calls had registered, and of barriers that could not be sent.",
 "C27": "The window of messages counted for an entry may extend past the barrier reply up to the moment of collection.",
 "C28": "Proved for OpenFlow 1.0-1.3 while nobody waits for a port. Refuted for OpenFlow 1.4: a FEATURES_REPLY empties the list. With a waiter see C31. C28_exact: any sequence of well-formed events is received without an exception if and only if a correct switch can produce it; C28_observed: if the user catches the exceptions, the list is what an observer sees that overlooks the contradicting events.",
 "C30": "Proved for OpenFlow 1.0-1.3 while nobody waits for a port. Refuted for OpenFlow 1.4: record size and field positions are wrong.",
 "C31": "Refuted for every waiter and every matching event: Event.set(port) raises TypeError. Proved: immediate returns of wait_attach/wait_detach.",
 "C32": "False of the code when a write to a monitor fails or a second hello arrives: recv of the parent raises (two refutations). Proved for all histories in which writes to monitors succeed and no further hello arrives. C32_whole_partial says so for whole runs. C32_exact: written to the monitors up to the first that fails, handed on iff none fails; a hello iff not monitored or the first.",
 "C34": "Closed channel: recv, iteration, no read of the transport; an iteration counts as ended just if recv returned nothing.",
 "C35": "False of the code: the limit is not kept, late binding of the closure variables can call a task twice and another never or mix function and arguments of two tasks, limit 0 never runs anything (four refutations). Proved for all schedules: one thread per task, in order, none left behind; for schedules with promptly starting task threads: every task is called exactly once. C35_calls_partial: for all schedules, whatever a task thread calls consists of parts of submitted tasks, none submitted before its own; C35_last: so the thread of the last task always calls its own. C35_unbounded_refuted: with limit 1 any number of tasks can run at once.",
 "C36": "False of the code: a second get after an exception returns None instead of raising (refutation). Proved for functions that return a value, for the first get in all cases, and that get does not return before the function ends. C36_exact: all of n gets report the outcome iff it is a value or n ≤ 1.",
 "C38": "For all twenty message builders, by the common function ofp_.",
 "C40": "False of the code for set-field/experimenter actions that need padding and for set-MPLS-TTL (refutations for all such actions). Proved: what comes back in every other case, and exact round trip when no padding is needed.",
 "C41": "False when an action needs padding (refutation); exact round trip proved otherwise.",
 "C42": "METER_MOD with an experimenter band makes the parser loop forever (refutation for all such messages); exact round trip proved otherwise.",
 "C43": "PACKET_IN and FLOW_REMOVED in full; PACKET_OUT is false when an action needs padding (refutation), proved otherwise.",
 "C44": "PORT_MOD can never be parsed (refutation for all arguments); port names come back as Unicode up to the first NUL; all others proved in full.",
 "C45": "False for port statistics, descriptions shorter than their fields, aggregate requests and replies (refutations for all such arguments); everything else proved.",
 "C46": "False of the code (two families of looping inputs). Proved: exactly (if and only if) which buffers make the parser loop, and that the model's divergence value corresponds to a loop that never ends.",
 "C47": "Holds for all standard fields but IPV6_FLABEL and MPLS_LABEL, for which it is refuted. Also: building what was parsed gives back the same bytes, parse_list terminates on all inputs.",
 "C48": "Rendering in the documented form and rejection of unknown options proved; the rendering determines names and arguments if no argument is missing or empty (partial); refuted for flag values, which are ignored, and missing arguments.",
 "C49": "Proved for single messages and for every history of asynchronous messages and barrier-delimited traffic; see C49_history.",
 "C50": "C50_answers_partial: whenever the agent handles a message without raising, what it sends to the controller is exactly the one reply the request asks for, with id, type and length right. C50_answered / C50_ports_answered: features, config, role, description requests are always answered, port descriptions with up to 1023 well-formed ports. False with 1024 ports or 1170 flows (C50_many_ports_refuted, C50_many_flows_refuted) and after a failed add_port, which leaves a port that cannot be packed (C50_ghost_refuted). C50_contents: the bytes of the answers about features, configuration, role and description; C50_first_ports: the answer of a switch just started about its ports. C50_exact says exactly which messages are handled without an exception.",
 "C51": "C51_adds_partial / C51_answered_partial: after any history whose flow mods are additions of pairwise different flows (library-built, distinct cookies), every flow statistics request is answered with exactly the flows an OpenFlow switch would hold. Missing: everything else, since the agent keys its table by cookie and ignores the command: deletes add a second flow (C51_delete_refuted), same-match adds do not replace (C51_replace_refuted), a known cookie raises (C51_cookie_refuted), the table filter of the request is ignored (C51_filter_refuted).",
 "C53": "C53_view_partial: if all calls of the port manager return normally, a controller that reads the port status messages has the agent's view of the ports. False after failed additions and deletions (C53_failed_add_refuted, C53_failed_delete_refuted). C53_exact says for any history, with exceptions or not, exactly when the controller has the agent's ports again; C53_received_exact says exactly when its recv raises no exception; a failed deletion that is tried again makes it raise AssertionError (C53_retry_refuted).",
 "C54": "False of the code: unsolicited messages (without handle_async) are sent to the client whose request is outstanding (refutation). Proved for asynchronous messages when handle_async exists; see C33 for replies. C54_exact: which messages reach a client, by the requests outstanding, in every execution.",
 "C55": "False of the code for queues with properties and for every experimenter message (refutations); proved for queues without properties.",
 "C56": "C56_layout covers all twenty message builders against a byte-by-byte transcription of the standard's structures. Refuted: the length of meter statistics is copied from the argument, and the numbering of table feature property types differs from the standard.",
 "C57": "Refuted: build_stratos raises for all arguments; NXM_1 fields break parse_list and are built with the wrong width; masked vendor fields of other types raise TypeError. Parsing of vendor fields with a number (against the radiotap table) and of unmasked other vendor fields is proved.",
 "C58": "Proved for OpenFlow 1.1 to 1.3; refuted for version 5, where IndexError is raised and no command runs. C58_exact: with -O and the right name iff the version is 2, 3 or 4; anything runs iff the version is known and at most 4.",
 "C59": "Proved for messages of at least a header, in any order and number.",
 "C60": "C60_message_partial: for every rebuildable call, parsing the built message and rebuilding from the parsed tuples gives the same bytes. Missing: calls outside Rebuildable; false for a port (C60_port_refuted, C60_port_desc_refuted: the name's padding), experimenter replies (C60_experimenter_refuted) and aggregate replies (C60_aggregate_refuted).",
 "C61": "C61_first_partial: a packet-out handled without an exception is forwarded as its first action says. False for further actions, for no actions, and for reserved or unknown ports (C61_second_refuted, C61_exception_refuted). C61_outcome: the result in every case; C61_exact: forwarded as all actions say iff the first is an output to an existing port and no later action is an output to a port with a socket.",
 "C62": "True for the first 0xfffffefe additions (C62_valid_partial); later numbers are reserved ones (C62_reserved_refuted) and numbers are never used again (C62_refusal_refuted). C62_exact: the number is 3 plus the additions attempted before, so valid iff these are at most 0xfffffefd.",
 "C63": "False: if a client is gone before the hello is sent, the exception ends the accept loop and closes the socket (C63_refuted, from every state in which a hello is about to be sent). Proved for runs in which hellos can be sent and accept() raises nothing but timeouts. C63_unstarted: before start() nothing is accepted. C63_exact: started and not stopped, it listens iff accept() raised nothing but timeouts and every hello could be sent.",
 "C64": "False: if a handler raises something other than ChannelClose the channel is neither closed nor removed (C64_refuted). Proved: the set holds exactly the connections between registration and removal (C64_set), an ended connection is closed (C64_closed), and without such exceptions every ended loop is closed and forgotten (C64_ends_partial). C64_exact: in the set iff at work or an exception left the loop.",
 "C65": "Proved for all interleavings: no more reads, what stop() has closed when it returns, termination (accessibility of the step relation), the state at rest. False in one point: a connection whose handler raised stays in the set, and one whose hello could not be sent is never closed (C65_raised_refuted, C65_hello_refuted); C65_nothing_left_partial excludes both. C65_exact: at rest the set is empty iff no exception left a loop; all connections are closed and ended iff moreover every hello was sent.",
 "C66": "Proved for all schedules without async_rate; with async_rate for schedules in which the rate limiter's threads start promptly (C66_prompt_partial, by C35). With async_rate another schedule handles one message twice and another never (C66_refuted). Exceptions of handlers close the channel and never reach the receiving thread, for all schedules. C66_rated says which messages go to the rate limiter and which get their own thread; a message too short for a header kills the receiving thread when async_rate is set (C66_headless_refuted). C66_count_partial: for all rate limits and schedules, only received messages are handled, not more often than received, and at rest exactly as many calls as messages.",
 "C67": "False: every message has a thread of its own (C67_refuted). Proved for schedules in which a thread calls the handler before the next message is received. C67_order: without rate limit the messages are handled in the order in which their threads first run, once each; C67_exact: different messages are handled in the order of arrival iff the threads first run in the order of their start.",
 "C68": "False: Channel.send ignores how much socket.send has accepted; every partial send loses bytes and the receiver gets messages nobody sent (C68_refuted, C68_loses_bytes_refuted). Proved end to end if every send is accepted as a whole or raises (C68_partial). C68_exact: the receiver gets precisely what was sent iff every send was whole or raised.",
 "C69": "Proved for FLOW_MOD and flow statistics with their action instructions; for buckets and PACKET_OUT only an upper bound holds. False for instructions of fixed size (length ignored), buckets and PACKET_OUT (elements may overrun): witnesses.",
 "C70": "For every call of Spec/Of14Calls, i.e. all message builders of ofp5/build.py.",
 "C71": "Exact lists come back if no set-field or experimenter action needs padding; set-MPLS-TTL cannot be parsed.",
 "C72": "Round trip of all calls that are parseable (Call.Parseable), nested to any depth; refuted for experimenter errors, role, table status, port mod, bundle properties, meter mod, port status.",
 "C73": "Properties of the kinds that can be built and parsed; the others refuted one by one.",
 "C74": "Requests and replies of the types that work; the others refuted type by type.",
 "C75": "False as stated: messages of several kinds, some built by the library, make the parser loop forever (families of witnesses). Proved: exactly (if and only if) which buffers make the parser loop, for all offsets and nestings, and that the listed causes are the only ones.",
 "C76": "Proved for all calls that Call.Right admits; the excluded ones (TABLE_STATUS, ROLE_STATUS, ports with properties, flow updates, some paddings, copied lengths) are refuted.",
 "C77": "bitnames is proved for flags declared as bitshifts; it is refuted for flags declared as numbers (OFPBF), where it gives no names at all.",
 "C78": "Proved for all constants of the standard except those listed in wrong13, missing13, wrong14, missing14, for which the actual value is proved. The tables of the standard are transcribed by hand from openflow.h.",
 "C79": "False of IPV6_FLABEL and MPLS_LABEL (one byte instead of four) and of the number of PBB_UCA; proved for all other fields. Rebuilding and termination hold for all bytes.",
 "C80": "Proved for Ethernet II frames with or without one VLAN tag whose IPv4 header has no options and no congestion bits and is not a fragment, and ARP operations below 256; refuted for the rest and for 802.3 frames. Totality and dependence on the first 46 bytes hold for all byte strings. C80_exact: for all good Ethernet II frames, the fields are right iff there are no congestion bits, the ports are where the code looks, and an ARP operation has eight bits.",
 "C81": "Proved for switches that announce one datapath (or none, then one): exactly one file per started server, all files removed by close, also under any interleaving of small steps with the last close after the receiving loop. Refuted if the datapath changes. Names are injective and other files untouched in all cases.",
 "C82": "The claim is refuted; proved instead that every run with at least one round ends with TypeError and handles nothing. C82_register: what registering a sender would do.",
 "C83": "Received and given messages: proved for all call sequences. Sent messages: only if no send fails. One line per closing: proved for one thread, and for any number of threads with the lock of ParallelChannel; refuted without. C83_delivered: the transport gets exactly the messages whose send does not fail; C83_sent_exact: the log of sent messages is right iff no send failed.",
 "C84": "Exact condition proved (iff); refuted in general: a start that raises, or a stop that raises, leaves servers running.",
 "C85": "The claim is refuted (local variable); proved that the call has no effect, and which attributes sched has.",
 "C86": "Proved for every message of the library that comes back as itself (and three kinds that come back as others but are rebuilt identically). Refuted for REQUESTFORWARD, bundles with it, TABLE_MOD, table features, some requests and replies, METER_MOD and PORT_MOD.",
 "C87": "Full statement in the comment of C87_partial. Missing: packets from port 3 when match modules without default gate use gate 0; there it is false (C87_port3_refuted), as the Python script gives the rule of table 3 to t0_inport. What the modules of BESS do is an assumption (Model/Cord.lean). C87_exact, C87_exact_ip, C87_exact_arp: exactly which packets are treated differently.",
 "C88": "Full statement in the comment of C88_partial. It is false for tagged frames without DEI bit, for rewritten addresses, for types other than IPv4 that look like it, first fragments and IPv6, and if match modules without default gate drop (the _refuted theorems). C88_settled shows that the entries leave no choice but that of the bucket.",
 "C89": "False if BESS rejects byte strings of another size than their field (C89_run_refuted); otherwise proved for all packets.",
 "C90": "Proved for ports that the switch had when HELLO was handled; false for others (C90_newport_refuted).",
 "C91": "Full statement in the comment of C91_partial. False for hosts that come back to a port, for threads that overtake each other (C91_moved_refuted, C91_stale_refuted) and after the entry of table 1 has expired (C91_forgotten_refuted).",
 "C92": "Proved with exact bytes for messages the parser takes after a greeting of version 1.3; false for barrier, role, queue, asynchronous-mask and other multipart requests (C92_unanswered_refuted).",
 "C93": "Proved if 1.3 is the highest version of the controller; false if it also speaks a higher one (C93_higher_refuted). C93_exact: handled without exception iff the greeting's version is 1.3.",
 "C94": "Exact for FLOW_MOD, flow, group and meter statistics and for the action lists of instructions; for buckets, GROUP_MOD, PACKET_OUT, asynchronous configuration and bundled messages only an upper bound holds. False for instructions of fixed size and forwarded requests (length ignored), for buckets, PACKET_OUT and asynchronous configuration (elements may overrun): witnesses.",
 "C95": "C95_size bounds the records in every history. C95_partial: at rest at most one record is left, none if the last message sent was a barrier request. The full claim is false: C95_stale_refuted exhibits a callback that receives an unsolicited error after its request was answered. C95_exact: at rest some message is still given to a callback if and only if the callback is alive and the last thing written is its request, no barrier request.",
 "C96": "C96_result and C96_errors characterise the function completely; C96_type_partial gives the type when name resolution gives types. False in general: type 0 entries (C96_type_refuted), given sockets (C96_given_refuted), only the first address is tried (C96_only_first_refuted).",
 "C97": "C97_first: right for the first connection. C97_messages_partial: right messages if nothing is left of earlier connections. False otherwise: no greeting on later connections (C97_greeting_refuted, for all histories), left-over bytes are mixed in (C97_mixed, C97_bytes_refuted), the version stays (C97_version_refuted). C97_exact: starts afresh iff never started, no version known and no bytes left.",
 "C98": "C98_request, C98_reply, C98_received, C98_no_reply, C98_multi. False for errors: C98_error_refuted holds for every message of another type.",
 "C99": "C99_other and C99_awaited say what receiving does; C99_causes lists all causes of exceptions in every run. False: C99_race_refuted, C99_short_refuted."
}