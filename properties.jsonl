{"id": "C01", "title": "Framing is independent of how the transport splits the bytes", "statement": "If the peer sends the byte concatenation of any sequence of OpenFlow messages whose header length fields are correct (>= 8 and equal to the message size), then iterating a channel yields exactly these messages, byte for byte and in order, no matter how the transport cuts the stream into reads and no matter how many read timeouts occur in between; iteration ends only when the transport reports end of stream.", "quantifier": "every list of well-formed messages, every split of their concatenation into non-empty reads, every interleaving of timeouts", "why_tests_cant": "The number of splits and timeout placements is unbounded; a test tries a handful of them.", "anchors": ["twink/base.py:OpenflowBaseChannel.recv", "twink/base.py:OpenflowBaseChannel.__iter__"]}
{"id": "C02", "title": "The receive path neither loses nor invents bytes", "statement": "At every moment, the concatenation of everything recv() has returned so far followed by what the channel still buffers equals the concatenation of everything the transport delivered so far. This holds for arbitrary (also hostile or truncated) streams and across reads that end in 'no data'.", "quantifier": "every byte stream, every read schedule, every number of recv() calls", "why_tests_cant": "Universally quantified over streams and schedules, including malformed headers.", "anchors": ["twink/base.py:OpenflowBaseChannel.recv"]}
{"id": "C03", "title": "A message is delivered exactly when its last byte has arrived", "statement": "A recv() call that returns a message of announced length n >= 8 returns exactly n bytes whose header announces n, and it performs a transport read only while the bytes already buffered do not contain a complete message, so a complete buffered message is delivered without touching the transport.", "quantifier": "every buffer content and every sequence of transport results", "why_tests_cant": "Timing of delivery depends on arbitrary buffer contents and read schedules.", "anchors": ["twink/base.py:OpenflowBaseChannel.recv"]}
{"id": "C04", "title": "A spurious empty read does not corrupt framing", "statement": "If a read returns no data in the middle of a message (for example EAGAIN mapped to an empty read), recv() reports 'no message', keeps all bytes received so far, and a later recv() continues and yields the same message it would have yielded without the interruption.", "quantifier": "every message sequence, every split, every placement of empty reads between non-empty ones", "why_tests_cant": "The interruption can occur at any byte offset of any message.", "anchors": ["twink/base.py:OpenflowBaseChannel.recv", "twink/base.py:default_wrapper"]}
{"id": "C05", "title": "recv never delivers a fragment shorter than an OpenFlow header", "statement": "Whatever the peer sends, recv() returns either 'no message' because the transport is exhausted, or at least the 8 header bytes, so that code that unpacks the header of a returned message cannot fail, and a buffered announced-length-0 message is not mistaken for end of stream.", "quantifier": "every byte stream sent by the peer", "why_tests_cant": "Requires considering all 65536 length values for every header and arbitrary following data.", "anchors": ["twink/base.py:OpenflowBaseChannel.recv", "twink/base.py:OpenflowBaseChannel.__iter__", "twink/base.py:parse_ofp_header"]}
{"id": "C06", "title": "The version bitmap survives transmission", "statement": "For every non-empty set of version numbers in 0..255 whose maximum is at least 4, parsing the hello message built for the set yields exactly that set; if the maximum is below 4 it yields exactly the maximum; for no versions given it yields {1}.", "quantifier": "every finite set of versions and every transaction id", "why_tests_cant": "There are 2^256 sets.", "anchors": ["twink/base.py:hello", "twink/base.py:parse_hello", "twink/base.py:ofp_version_normalize"]}
{"id": "C07", "title": "Hello messages are well-formed OpenFlow messages", "statement": "Every hello message has type 0, announces as version the highest accepted version, carries the given transaction id, has a header length equal to its size, a version bitmap element length equal to 4 plus four bytes per bitmap word, and (as the OpenFlow specification demands for hello elements) is padded to a multiple of 8 bytes.", "quantifier": "every non-empty set of versions in 0..255 and every 32-bit transaction id", "why_tests_cant": "Padding depends on the number of bitmap words, which depends on the set.", "anchors": ["twink/base.py:hello"]}
{"id": "C08", "title": "Version negotiation picks a version acceptable to both sides or closes", "statement": "When a channel receives a hello message, either the version it selects is a member of both the announced set and its own accepted set and no larger such version exists, or there is no common version and then it leaves its version unchanged, sends exactly one ERROR(HELLO_FAILED, INCOMPATIBLE) message whose length field is right, and fails with the channel-close signal.", "quantifier": "every accepted set within 1..5, every announced set, every previous channel state", "why_tests_cant": "Ranges over all pairs of sets.", "anchors": ["twink/base.py:OpenflowChannel.recv"]}
{"id": "C09", "title": "Both ends of a connection agree on the version", "statement": "If two twink channels exchange hello messages, either both select the same version (the highest one accepted by both), or both fail.", "quantifier": "every pair of accepted version sets", "why_tests_cant": "Agreement is a relation between two independently computed decisions over all pairs of sets.", "anchors": ["twink/base.py:hello", "twink/base.py:parse_hello", "twink/base.py:OpenflowChannel.recv"]}
{"id": "C10", "title": "The handshake hello is sent exactly once", "statement": "However often a channel is started or attached with autostart, and whatever else is sent or received in between, exactly one hello is written by these calls, and it precedes everything written after the first start.", "quantifier": "every sequence of start/attach/send/recv calls", "why_tests_cant": "Any interleaving of calls.", "anchors": ["twink/base.py:OpenflowChannel.start", "twink/base.py:OpenflowChannel.attach"]}
{"id": "C11", "title": "Generated transaction ids never repeat and fit the wire", "statement": "The ids produced by successive calls are strictly increasing whatever the wall clock does (including going backwards), and during the first two billion minus change calls of a process each id fits the 32-bit header field.", "quantifier": "every sequence of wall clock readings, also non-monotonic ones, of every length", "why_tests_cant": "Clock readings are adversarial; a test cannot enumerate them.", "anchors": ["twink/base.py:hms_xid", "twink/base.py:ofp_header_only"]}
{"id": "C12", "title": "Generated transaction ids are unique across threads", "statement": "Two calls that run concurrently in different threads never return the same id.", "quantifier": "every interleaving of the reads and writes of concurrent calls and all clock readings", "why_tests_cant": "The race window is a few bytecodes wide; tests essentially never hit it.", "anchors": ["twink/base.py:hms_xid"]}
{"id": "C13", "title": "Echo requests are answered once, faithfully, and hidden from the handler", "statement": "On an auto-echo channel with a negotiated version every ECHO_REQUEST causes exactly one write: an ECHO_REPLY of the negotiated version with the same transaction id, the same length field and the same payload; it is not passed to the user's handler. Every other message causes no automatic write and is passed to the handler exactly once, unchanged, in order.", "quantifier": "every sequence of received messages", "why_tests_cant": "Any payload, length and mixture of messages.", "anchors": ["twink/base.py:AutoEchoChannel.handle_proxy", "twink/base.py:OpenflowServerChannel.loop"]}
{"id": "C14", "title": "The server loop handles each message once and in order until close", "statement": "The loop passes the received messages to the handler one at a time, each exactly once, in arrival order; it ends at end of stream, and if receiving or handling raises the channel-close signal the channel is closed and no later message is handled; any other exception leaves the loop without closing.", "quantifier": "every sequence of received messages and every handler behaviour", "why_tests_cant": "Handlers and message sequences are arbitrary.", "anchors": ["twink/base.py:OpenflowServerChannel.loop"]}
{"id": "C15", "title": "Messages are written in call order, unchanged, with only barrier requests added", "statement": "On a controller channel, erasing the automatically inserted barrier requests from what was written to the transport gives exactly the user's messages in the order of the send calls; each inserted message is a header-only BARRIER_REQUEST of the negotiated version with a fresh id.", "quantifier": "every sequence of send and receive operations with arbitrary callbacks", "why_tests_cant": "Insertion depends on the whole history.", "anchors": ["twink/base.py:ControllerChannel.locked_send"]}
{"id": "C16", "title": "Outstanding work of different callbacks is always separated by a barrier", "statement": "At any time, between two outstanding messages that were sent with different reply callbacks there is an outstanding barrier request, so the internal 'dropping multiple chunks at a time' failure cannot occur whatever replies arrive.", "quantifier": "every history of sends, replies and callbacks dying", "why_tests_cant": "Invariant over all histories.", "anchors": ["twink/base.py:ControllerChannel.locked_send", "twink/base.py:ControllerChannel.handle_proxy"]}
{"id": "C17", "title": "Replies are delivered to the callback of the request that caused them", "statement": "If the switch processes messages in order and answers every barrier request, every reply to a message that was sent with a reply callback is delivered to that callback (if still referenced) and to no other one, and no barrier assertion fires.", "quantifier": "every sequence of sends with arbitrary callbacks, every number of replies per request and every delay of the switch", "why_tests_cant": "The interleavings of sends and delayed replies are unbounded.", "anchors": ["twink/base.py:ControllerChannel.locked_send", "twink/base.py:ControllerChannel.handle_proxy"]}
{"id": "C18", "title": "Replies to requests without callback reach the default handler", "statement": "If the switch processes messages in order, a reply to a message sent without a callback is given to the channel's default handler, never to a callback registered by somebody else.", "quantifier": "every sequence of sends and every delay of the switch", "why_tests_cant": "Depends on the race between a delayed reply and a later send.", "anchors": ["twink/base.py:ControllerChannel.locked_send", "twink/base.py:ControllerChannel.handle_proxy"]}
{"id": "C19", "title": "A barrier reply with an unexpected id never disturbs the bookkeeping", "statement": "A BARRIER_REPLY whose id is not that of the oldest outstanding barrier raises an assertion failure and leaves the outstanding-work queue unchanged; one with the expected id removes precisely the oldest barrier and what precedes it. If nothing is outstanding it goes to the default handler.", "quantifier": "every queue content and every barrier reply", "why_tests_cant": "Arbitrary queue states and ids.", "anchors": ["twink/base.py:ControllerChannel.handle_proxy"]}
{"id": "C20", "title": "Asynchronous messages bypass reply callbacks", "statement": "On a channel with an asynchronous handler, PACKET_IN, FLOW_REMOVED and PORT_STATUS messages go to this handler only, whatever work is outstanding, and leave the outstanding-work queue unchanged.", "quantifier": "every queue content and every asynchronous message", "why_tests_cant": "Arbitrary queue states.", "anchors": ["twink/base.py:ControllerChannel.handle_proxy"]}
{"id": "C21", "title": "The datapath id is the one the switch reported", "statement": "After a FEATURES_REPLY was received, the channel's datapath attribute is the 64-bit id in that message (and from OpenFlow 1.3 on the auxiliary attribute is its auxiliary id); other messages leave both unchanged.", "quantifier": "every received message sequence", "why_tests_cant": "All 64-bit ids and all histories.", "anchors": ["twink/base.py:ControllerChannel.recv"]}
{"id": "C22", "title": "A synchronous request returns its own reply", "statement": "send_sync returns the reply carrying the request's transaction id and never data belonging to a different request, as long as simultaneously outstanding requests use different ids, for any interleaving of senders and of the receiving thread.", "quantifier": "every interleaving of any number of outstanding synchronous requests with received messages", "why_tests_cant": "Concurrency: all schedules and all message orders.", "anchors": ["twink/base.py:SyncChannel.recv", "twink/base.py:SyncChannel.send_sync"]}
{"id": "C23", "title": "Multipart replies are reassembled in arrival order", "statement": "For a request answered with a multipart reply, the result is the concatenation of all fragments with the request's id in order of arrival, and the requester is released exactly when the fragment without the 'more' flag arrives, no matter which other messages are interleaved.", "quantifier": "every sequence of fragments interleaved with arbitrary messages", "why_tests_cant": "Unbounded fragment counts and interleavings.", "anchors": ["twink/base.py:SyncChannel.recv"]}
{"id": "C24", "title": "A synchronous request returns a complete reply or reports failure", "statement": "When send_sync returns a non-empty value, it is a complete reply: a timeout never yields part of a multipart reply as if it were the whole.", "quantifier": "every arrival schedule of reply fragments relative to the timeout", "why_tests_cant": "Depends on where in the fragment sequence the timeout strikes.", "anchors": ["twink/base.py:SyncChannel.send_sync"]}
{"id": "C25", "title": "Closing a channel releases every synchronous waiter", "statement": "After close, every outstanding synchronous request is released and returns the empty value, and no later message changes that.", "quantifier": "every set of outstanding requests", "why_tests_cant": "Any number of waiters in any state.", "anchors": ["twink/base.py:SyncChannel.close", "twink/base.py:SyncChannel.send_sync"]}
{"id": "C26", "title": "Synchronous bookkeeping does not leak", "statement": "When a send_sync or multi call has ended in any way (reply, timeout, close, barrier failure), no record of its request remains registered.", "quantifier": "every outcome of the call", "why_tests_cant": "Every outcome and interleaving, including errors.", "anchors": ["twink/base.py:SyncChannel.send_sync", "twink/base.py:SyncChannel.multi"]}
{"id": "C27", "title": "multi returns one result per message, in order", "statement": "multi(messages) with pairwise different ids returns a list of the same length whose i-th entry is the reply that arrived for the i-th message before the barrier reply, or None if there was none; single(m) is that entry.", "quantifier": "every list of messages and every sequence of received messages before the barrier reply", "why_tests_cant": "Any number of messages and replies in any order.", "anchors": ["twink/base.py:SyncChannel.multi", "twink/base.py:SyncChannel.single"]}
{"id": "C28", "title": "The ports property mirrors the switch's ports", "statement": "After initial synchronisation, for every sequence of PORT_STATUS messages that a correct switch can emit, the channel's port list has one entry per existing port number, holding the latest description the switch sent for it, and no entry for a deleted port.", "quantifier": "every initial port list without duplicate numbers and every consistent sequence of add/delete/modify events", "why_tests_cant": "State machine over unbounded histories.", "anchors": ["twink/base.py:PortMonitorChannel._update_port", "twink/base.py:PortMonitorChannel.ports", "twink/base.py:PortMonitorChannel._ports_replace"]}
{"id": "C29", "title": "Inconsistent port events are rejected without corrupting the port list", "statement": "After initialisation, adding an existing port, deleting or modifying an unknown port, or an unknown reason raises an error and leaves the port list as it was; port numbers in the list stay unique.", "quantifier": "every port list and every event", "why_tests_cant": "All states and events.", "anchors": ["twink/base.py:PortMonitorChannel._update_port"]}
{"id": "C30", "title": "Port descriptions are decoded exactly", "statement": "For OpenFlow 1.0 and 1.1-1.3, the port list obtained from a FEATURES_REPLY, a (fragmented) PORT_DESC reply or a PORT_STATUS message contains exactly the port records that were encoded, in order, with names cut at the first NUL; also for OpenFlow 1.4.", "quantifier": "every list of port records and every fragmentation", "why_tests_cant": "All field values and fragmentations.", "anchors": ["twink/base.py:PortMonitorChannel.recv"]}
{"id": "C31", "title": "A thread waiting for a port is woken by that port and the update is kept", "statement": "If a thread waits for the attachment (or detachment) of a port, the arrival of the corresponding event wakes it, updates the port list and lets the receive loop continue.", "quantifier": "every port, every waiter key (number or name), every channel state", "why_tests_cant": "Requires a waiter to be registered at the moment of the event.", "anchors": ["twink/base.py:PortMonitorChannel._update_port", "twink/base.py:PortMonitorChannel.wait_attach", "twink/base.py:PortMonitorChannel.wait_detach"]}
{"id": "C32", "title": "Monitors see every message of the switch exactly once and in order", "statement": "Each connected monitor receives, unchanged and in order, every non-hello message the parent channel receives while the monitor is connected, nothing else, and all messages still reach the parent's own handler.", "quantifier": "every message sequence and every sequence of monitors connecting and disconnecting", "why_tests_cant": "Unbounded histories.", "anchors": ["twink/base.py:ParentChannel.recv"]}
{"id": "C33", "title": "Jack-in clients see only the replies to their own requests", "statement": "When several jack-in clients share one switch connection (switch processing in order), each client's non-hello requests are forwarded unchanged and in order, and each reply caused by a client's request is sent to that client and to no other.", "quantifier": "every interleaving of requests of any number of clients with delayed replies", "why_tests_cant": "Multi-party interleavings.", "anchors": ["twink/base.py:JackinChildChannel.handle", "twink/base.py:WeakCallback.__call__", "twink/base.py:ControllerChannel.handle_proxy"]}
{"id": "C34", "title": "A closed channel delivers nothing more", "statement": "Once closed (and not re-attached), a channel performs no transport read, recv() returns only messages that were already completely buffered, and iteration terminates.", "quantifier": "every buffer content and history", "why_tests_cant": "All buffer contents and call sequences.", "anchors": ["twink/base.py:Channel.close", "twink/base.py:Channel.closed", "twink/base.py:ReadWrapper.__call__", "twink/base.py:OpenflowBaseChannel.recv"]}
{"id": "C35", "title": "Rate limiting runs every task exactly once with bounded concurrency", "statement": "For a positive limit, every submitted task is run exactly once and never more than 'limit' of them run at once; for limit zero tasks are not lost silently.", "quantifier": "every sequence of submissions and every thread schedule", "why_tests_cant": "Thread schedules.", "anchors": ["twink/base.py:RateLimit.spawn", "twink/base.py:RateLimit.loop"]}
{"id": "C36", "title": "A spawned task's outcome is reported by every get", "statement": "get() on a task returns the function's value or raises its exception, and repeated calls report the same outcome.", "quantifier": "every task outcome and every number of get calls", "why_tests_cant": "Any outcome and call count.", "anchors": ["twink/sched_basic.py:Threadlet.get"]}
{"id": "C37", "title": "Fixed-format packing and unpacking are inverse", "statement": "For every big-endian record layout used, unpacking at the offset where a record was packed yields the packed values (strings padded or cut to their field width), packing fails exactly if a number does not fit its field or the argument count differs, and unpacking fails exactly if the buffer is too short.", "quantifier": "every layout of B/H/I/Q/s/x items, all values, all surrounding bytes", "why_tests_cant": "Infinite families of layouts and values.", "anchors": ["twink/ofp4/parse.py:_cursor", "twink/ofp4/build.py:_pack"]}
{"id": "C38", "title": "OpenFlow 1.3 messages carry their true length", "statement": "Every message produced by the OpenFlow 1.3 builder functions that compute the header has a header length field equal to its number of bytes, the requested version, type and transaction id, and building fails if the message is longer than 65535 bytes.", "quantifier": "every builder argument", "why_tests_cant": "All arguments, including nested variable-length structures.", "anchors": ["twink/ofp4/build.py:ofp_", "twink/ofp4/build.py:ofp_header"]}
{"id": "C39", "title": "OpenFlow 1.3 match structures round-trip and are 8-byte aligned", "statement": "Building a match from any OXM bytes gives a structure whose length field excludes padding and whose size is the next multiple of 8; parsing it back, wherever it is embedded in a message, gives the same type and the same OXM bytes and moves the cursor just past the padding.", "quantifier": "all OXM field byte strings, all embeddings", "why_tests_cant": "All lengths modulo 8 and all surroundings.", "anchors": ["twink/ofp4/build.py:ofp_match", "twink/ofp4/parse.py:ofp_match"]}
{"id": "C40", "title": "OpenFlow 1.3 actions and instructions round-trip", "statement": "Parsing the concatenation of built actions (respectively instructions with their nested actions) gives back the same list, for every action kind the library can both build and parse.", "quantifier": "all lists of actions and instructions with in-range fields", "why_tests_cant": "Recursive data of unbounded size.", "anchors": ["twink/ofp4/build.py:ofp_action_output", "twink/ofp4/parse.py:ofp_action_", "twink/ofp4/build.py:ofp_instruction_actions", "twink/ofp4/parse.py:ofp_instruction_"]}
{"id": "C41", "title": "OpenFlow 1.3 flow modification messages round-trip", "statement": "Parsing a built FLOW_MOD message yields exactly the fields, match and instruction list it was built from.", "quantifier": "all field values, matches and instruction lists that fit the message", "why_tests_cant": "Unbounded nested data.", "anchors": ["twink/ofp4/build.py:ofp_flow_mod", "twink/ofp4/parse.py:ofp_flow_mod", "twink/ofp4/parse.py:parse"]}
{"id": "C42", "title": "OpenFlow 1.3 group and meter modification messages round-trip", "statement": "Parsing a built GROUP_MOD or METER_MOD message yields exactly the fields, buckets with their actions, respectively bands, it was built from.", "quantifier": "all field values, bucket lists, band lists that fit the message", "why_tests_cant": "Unbounded nested data.", "anchors": ["twink/ofp4/build.py:ofp_group_mod", "twink/ofp4/build.py:ofp_bucket", "twink/ofp4/build.py:ofp_meter_mod", "twink/ofp4/parse.py:ofp_group_mod", "twink/ofp4/parse.py:ofp_meter_mod"]}
{"id": "C43", "title": "OpenFlow 1.3 packet-in, packet-out and flow-removed messages round-trip", "statement": "Parsing a built PACKET_IN, PACKET_OUT or FLOW_REMOVED message yields exactly the fields, match, actions and packet data it was built from.", "quantifier": "all field values, matches, action lists, packet data that fit the message", "why_tests_cant": "Unbounded data.", "anchors": ["twink/ofp4/build.py:ofp_packet_in", "twink/ofp4/build.py:ofp_packet_out", "twink/ofp4/build.py:ofp_flow_removed", "twink/ofp4/parse.py:ofp_packet_in", "twink/ofp4/parse.py:ofp_packet_out", "twink/ofp4/parse.py:ofp_flow_removed"]}
{"id": "C44", "title": "OpenFlow 1.3 fixed-size control messages round-trip", "statement": "Parsing a built hello, error, features reply, switch config, table mod, port status, role request, async config, queue config request or port mod message yields the fields it was built from.", "quantifier": "all in-range field values", "why_tests_cant": "All field values.", "anchors": ["twink/ofp4/build.py:ofp_switch_features", "twink/ofp4/build.py:ofp_switch_config", "twink/ofp4/build.py:ofp_port_mod", "twink/ofp4/parse.py:parse"]}
{"id": "C45", "title": "OpenFlow 1.3 multipart messages round-trip", "statement": "For every multipart type that the library can both build and parse, parsing a built request or reply yields the header, type, flags and the list of body records it was built from.", "quantifier": "all multipart types, all record lists that fit", "why_tests_cant": "Unbounded lists of records.", "anchors": ["twink/ofp4/build.py:ofp_multipart_request", "twink/ofp4/build.py:ofp_multipart_reply", "twink/ofp4/parse.py:ofp_multipart_request", "twink/ofp4/parse.py:ofp_multipart_reply"]}
{"id": "C46", "title": "Parsing terminates on every input", "statement": "For every byte string, the OpenFlow 1.3 parser either returns a value or raises an exception; it never loops forever.", "quantifier": "all byte strings, including hostile ones", "why_tests_cant": "Non-termination cannot be observed by a finite test and depends on crafted lengths.", "anchors": ["twink/ofp4/parse.py:parse", "twink/ofp4/parse.py:ofp_action_set_field", "twink/ofp4/parse.py:ofp_meter_band_experimenter", "twink/ofp4/parse.py:ofp_instruction_"]}
{"id": "C47", "title": "OXM match fields round-trip", "statement": "Parsing a list of built OXM fields yields the fields, values and masks they were built from, for every standard field; each built field's length byte equals the number of payload bytes.", "quantifier": "all lists of standard fields with in-range values and optional masks", "why_tests_cant": "All fields, widths, masks and list lengths.", "anchors": ["twink/ofp4/oxm.py:build", "twink/ofp4/oxm.py:parse", "twink/ofp4/oxm.py:parse_list"]}
{"id": "C48", "title": "ovs-ofctl options are rendered losslessly", "statement": "Every accepted option produces its own argument(s): a flag for options without argument, otherwise a flag and value joined by '=' or as separate arguments; unknown options are rejected; different option dictionaries with non-empty values never yield the same argument list.", "quantifier": "all option dictionaries", "why_tests_cant": "All dictionaries.", "anchors": ["twink/ovs.py:OvsChannel._make_ofctl_options"]}
{"id": "C49", "title": "Buffered packet-ins are released exactly once", "statement": "On an auto-packet-out channel each PACKET_IN with a buffer id other than 'no buffer' causes exactly one PACKET_OUT with the same transaction id and buffer id, no actions and a correct length field; unbuffered ones and other messages cause none.", "quantifier": "all asynchronous messages, all versions", "why_tests_cant": "All buffer ids, versions and sequences.", "anchors": ["twink/ovs.py:AutoPacketOut.handle_async"]}
{"id": "C50", "title": "The software switch answers each request with the request's id", "statement": "Every FEATURES, GET_CONFIG, ROLE and supported MULTIPART request received by the BESS agent is answered by exactly one reply of the right type carrying the request's transaction id; other accepted messages are not answered.", "quantifier": "all request messages and agent states", "why_tests_cant": "All requests and states.", "anchors": ["bess_of_agent.py:switch_proc"]}
{"id": "C51", "title": "The software switch's flow table reflects the flow modifications", "statement": "After any sequence of FLOW_MOD messages, the flow statistics reply lists exactly the flows that an OpenFlow switch would hold (adds replace, deletes remove).", "quantifier": "all sequences of flow modifications", "why_tests_cant": "State machine over unbounded histories.", "anchors": ["bess_of_agent.py:switch_proc"]}
{"id": "C52", "title": "The agent's port numbers are unique and its port table consistent", "statement": "For any sequence of port additions and deletions, each added port gets a number never used before, the table maps each number to a record with this number, a deletion removes exactly one port with the given device name and nothing else, and each successful operation emits exactly one PORT_STATUS message with the right reason and port.", "quantifier": "all sequences of add and delete operations", "why_tests_cant": "State machine over unbounded histories.", "anchors": ["bess_of_agent.py:PortManager.add_port", "bess_of_agent.py:PortManager.del_port"]}
{"id": "C53", "title": "The controller's view equals the agent's port table", "statement": "A controller port list fed with the agent's PORT_DESC reply and then with the PORT_STATUS messages of any sequence of port additions and deletions contains exactly the agent's ports.", "quantifier": "all sequences of add and delete operations", "why_tests_cant": "End-to-end composition of two state machines and two codecs.", "anchors": ["bess_of_agent.py:PortManager.add_port", "bess_of_agent.py:PortManager.del_port", "twink/base.py:PortMonitorChannel._update_port"]}
{"id": "C54", "title": "A jack-in client receives nothing but replies to its own requests", "statement": "Every message written to a jack-in client by the parent channel is a reply caused by a request of that client.", "quantifier": "every interleaving of client requests, requests of other users of the parent channel, switch replies and unsolicited switch messages", "why_tests_cant": "Depends on the interleaving of requests, replies and unsolicited messages.", "anchors": ["twink/base.py:JackinChildChannel.handle", "twink/base.py:ControllerChannel.send", "twink/base.py:ControllerChannel.handle_proxy"]}
{"id": "C55", "title": "Queue configuration replies and experimenter messages round-trip", "statement": "Parsing a built QUEUE_GET_CONFIG_REPLY or EXPERIMENTER message yields the port, the list of queues with their properties, respectively the experimenter fields it was built from.", "quantifier": "all queue lists, properties, experimenter data that fit the message", "why_tests_cant": "Unbounded nested data.", "anchors": ["twink/ofp4/build.py:ofp_queue_get_config_reply", "twink/ofp4/parse.py:ofp_queue_get_config_reply", "twink/ofp4/parse.py:ofp_packet_queue", "twink/ofp4/parse.py:ofp_experimenter_"]}
{"id": "C56", "title": "OpenFlow 1.3 messages have the layout of the standard", "statement": "Every byte of a built OpenFlow 1.3 match, action, instruction, bucket, band or message is where the OpenFlow 1.3 wire format puts it: each field big-endian at its offset with its width, padding zero, nested structures in the given order.", "quantifier": "all arguments", "why_tests_cant": "All field values and nested lists; a round trip alone would not notice a wrong layout shared by builder and parser.", "anchors": ["twink/ofp4/build.py:ofp_flow_mod", "twink/ofp4/build.py:ofp_action_output", "twink/ofp4/build.py:ofp_bucket", "twink/ofp4/build.py:ofp_packet_out", "twink/ofp4/build.py:ofp_packet_in"]}
{"id": "C57", "title": "Vendor match fields round-trip", "statement": "Match fields of other classes that the package knows (Nicira's tunnel address, Stratos experimenter fields) can be built, and parse back, alone and in lists, to what they were built from.", "quantifier": "all vendor field types, values and masks", "why_tests_cant": "All field types, signs, byte orders, values and masks; a test of one field and one branch would not show that no field at all can be built.", "anchors": ["twink/ofp4/oxm.py:build_stratos", "twink/ofp4/oxm.py:parse", "twink/ofp4/oxm.py:parse_list"]}
{"id": "C58", "title": "ovs-ofctl is run with the protocol version of the channel", "statement": "A channel with the OpenFlow 1.1 to 1.4 version runs ovs-ofctl with the -O option of this version unless the caller chose one, and always stops the temporary server.", "quantifier": "all versions, actions, arguments and options", "why_tests_cant": "All versions and option lists; the failing version is one no test uses.", "anchors": ["twink/ovs.py:ofctl", "twink/ovs.py:_make_ofctl_options"]}
{"id": "C59", "title": "rule2ofp collects exactly the flow modifications and answers every barrier", "statement": "For any sequence of messages from ovs-ofctl the handler of rule2ofp answers each barrier request with one barrier reply of the same version and transaction id, sends nothing else, and collects the FLOW_MOD messages unchanged and in order.", "quantifier": "all message sequences, all versions", "why_tests_cant": "Unbounded message sequences.", "anchors": ["twink/ovs.py:rule2ofp"]}
{"id": "C60", "title": "Rebuilding a parsed OpenFlow 1.3 message gives the same bytes", "statement": "If an OpenFlow 1.3 message (or match, action, instruction, bucket) built by the library is parsed and the resulting tuples are handed to the builder again, the same bytes result.", "quantifier": "all arguments", "why_tests_cant": "All nested structures and field values; needs builder and parser to agree on defaults, lengths and padding.", "anchors": ["twink/ofp4/build.py:_obj", "twink/ofp4/build.py:ofp_flow_mod", "twink/ofp4/parse.py:ofp_flow_mod"]}
{"id": "C61", "title": "The software switch forwards packet-outs to the ports named by their actions", "statement": "A PACKET_OUT message makes the agent send exactly the packet data, once for every output action and in their order, to the sockets of the named ports, and nothing else.", "quantifier": "all PACKET_OUT messages and port tables", "why_tests_cant": "All action lists and port tables.", "anchors": ["bess_of_agent.py:switch_proc"]}
{"id": "C62", "title": "The agent hands out valid port numbers only", "statement": "Every port added by the port manager gets a number between 1 and OFPP_MAX (0xffffff00), and is refused when there is none left.", "quantifier": "all sequences of add and delete operations", "why_tests_cant": "The numbers in question appear after four billion additions.", "anchors": ["bess_of_agent.py:PortManager.add_port"]}
{"id": "C63", "title": "A client cannot stop the stream server from accepting", "statement": "As long as stop() has not been called, the accept loop of a started StreamServer keeps running and its socket stays open, whatever the clients do: connect, reset the connection at any moment, send anything, make handlers raise.", "quantifier": "all interleavings of accept loop, connections and clients", "why_tests_cant": "Depends on the moment a client goes away relative to the server's threads.", "anchors": ["twink/base.py:StreamServer.run", "twink/base.py:StreamServer._loop_runner"]}
{"id": "C64", "title": "Every connection of the stream server ends closed and forgotten", "statement": "The server's set of channels holds exactly the connections whose loop runs. When the loop of a connection ends, for whatever reason, its channel is closed and then removed from the set.", "quantifier": "all interleavings of accept loop, connection threads and stop()", "why_tests_cant": "Concurrent threads and exceptions at every point.", "anchors": ["twink/base.py:StreamServer._loop_runner", "twink/base.py:StreamServer.stop"]}
{"id": "C65", "title": "Stopping the stream server ends everything", "statement": "After stop() no connection starts another read of its transport; when stop() has returned every connection is closed or will close without having handled a message; and the server winds down: after finitely many steps of its threads nothing runs any more, all channels are closed, the set of channels is empty and the listening socket is closed.", "quantifier": "all interleavings, including connections accepted while stop() runs", "why_tests_cant": "Races between accept, registration of the channel and stop(); termination of all interleavings.", "anchors": ["twink/base.py:StreamServer.stop", "twink/base.py:StreamServer.read_wrap", "twink/base.py:StreamServer.run"]}
{"id": "C66", "title": "A parallel channel hands every message to the handler exactly once", "statement": "With ParallelChannel every received message is handed to the handler exactly once, in its own thread; an exception of the handler closes the channel and never reaches the receiving thread.", "quantifier": "all message sequences, thread schedules and handler outcomes", "why_tests_cant": "Thread schedules.", "anchors": ["twink/base.py:ParallelChannel.handle_proxy"]}
{"id": "C67", "title": "A parallel channel handles messages in the order of arrival", "statement": "With ParallelChannel the handler is called for the messages in the order in which they were received.", "quantifier": "all message sequences and thread schedules", "why_tests_cant": "Thread schedules.", "anchors": ["twink/base.py:ParallelChannel.handle_proxy"]}
{"id": "C68", "title": "Messages sent by one channel are received by the other, unchanged and in order", "statement": "If one twink channel sends well-formed messages over a stream socket and another one reads the stream, the latter delivers exactly the messages sent, in order, however the transport cuts the stream and however much of a message the socket accepts at a time.", "quantifier": "all message sequences, all ways in which send accepts and recv returns parts", "why_tests_cant": "Partial sends and reads depend on kernel buffers and load.", "anchors": ["twink/base.py:Channel.send", "twink/base.py:OpenflowBaseChannel.recv"]}
{"id": "C69", "title": "Lengths inside a parsed OpenFlow 1.3 message agree with its contents", "statement": "Whenever the OpenFlow 1.3 parser accepts a structure, the structure's length field is the number of bytes its contents take up: an instruction's, bucket's or message's elements end exactly where the enclosing structure says it ends.", "quantifier": "all byte strings that are parsed without exception", "why_tests_cant": "Round-trip tests only use messages whose lengths are right; the property is about every byte string a peer might send.", "anchors": ["twink/ofp4/parse.py:_list_fetch", "twink/ofp4/parse.py:ofp_flow_mod", "twink/ofp4/parse.py:ofp_instruction_actions", "twink/ofp4/parse.py:ofp_bucket", "twink/ofp4/parse.py:ofp_packet_out"]}
{"id": "C70", "title": "OpenFlow 1.4 messages carry their true length", "statement": "Every message produced by the OpenFlow 1.4 builder functions that compute the header has a header length field equal to its number of bytes, version 5, the requested type and transaction id, and building fails if the message is longer than 65535 bytes.", "quantifier": "every builder call with every argument, messages nested inside of messages included", "why_tests_cant": "All arguments, including nested variable-length structures.", "anchors": ["twink/ofp5/build.py:ofp_", "twink/ofp5/build.py:ofp_header"]}
{"id": "C71", "title": "OpenFlow 1.4 actions, instructions and buckets round-trip", "statement": "Parsing a built list of actions, instructions or buckets, wherever it stands in a message, yields the list it was built from, with types and lengths filled in, and ends exactly where the bytes end.", "quantifier": "all lists of actions, instructions with nested actions, buckets with nested actions; all embeddings", "why_tests_cant": "Unbounded nested lists.", "anchors": ["twink/ofp5/build.py:ofp_action_", "twink/ofp5/build.py:ofp_instruction_actions", "twink/ofp5/build.py:ofp_bucket", "twink/ofp5/parse.py:ofp_action_", "twink/ofp5/parse.py:ofp_instruction_", "twink/ofp5/parse.py:ofp_bucket"]}
{"id": "C72", "title": "OpenFlow 1.4 messages round-trip", "statement": "Parsing any built OpenFlow 1.4 message yields exactly the header, fields, matches, elements and nested messages it was built from.", "quantifier": "all builder calls with all arguments, bundled and forwarded messages nested to any depth", "why_tests_cant": "Unbounded nesting and lists.", "anchors": ["twink/ofp5/build.py:ofp_flow_mod", "twink/ofp5/build.py:ofp_bundle_add_msg", "twink/ofp5/build.py:ofp_requestforward_header", "twink/ofp5/build.py:ofp_role_status", "twink/ofp5/build.py:ofp_port_mod", "twink/ofp5/parse.py:parse", "twink/ofp5/parse.py:ofp_bundle_add_msg", "twink/ofp5/parse.py:ofp_port_mod"]}
{"id": "C73", "title": "OpenFlow 1.4 properties round-trip", "statement": "Parsing a built property (of ports, port modifications, port and queue statistics, queues, tables, asynchronous configuration), wherever it stands, yields the fields it was built from and ends where its bytes end.", "quantifier": "all properties of all kinds, all embeddings", "why_tests_cant": "All values and data lengths.", "anchors": ["twink/ofp5/build.py:ofp_port_desc_prop_ethernet", "twink/ofp5/build.py:ofp_table_mod_prop_eviction", "twink/ofp5/parse.py:ofp_port_desc_prop_header", "twink/ofp5/parse.py:ofp_port_mod_prop_header", "twink/ofp5/parse.py:ofp_port"]}
{"id": "C74", "title": "OpenFlow 1.4 multipart messages round-trip", "statement": "For every multipart type, requests and replies can be built, and parsing what was built yields the header, type, flags and the list of body records it was built from.", "quantifier": "all multipart types, all record lists that fit", "why_tests_cant": "Unbounded lists of records.", "anchors": ["twink/ofp5/build.py:ofp_multipart_request", "twink/ofp5/build.py:ofp_multipart_reply", "twink/ofp5/parse.py:ofp_multipart_request", "twink/ofp5/parse.py:ofp_multipart_reply"]}
{"id": "C75", "title": "The OpenFlow 1.4 parser ends", "statement": "Parsing ends, with a message or an error, for every byte string and every offset: no loop over elements or properties runs forever.", "quantifier": "all byte strings, all offsets, messages nested to any depth", "why_tests_cant": "Non-termination cannot be observed by a test, and the inputs are unbounded.", "anchors": ["twink/ofp5/parse.py:parse", "twink/ofp5/parse.py:_list_fetch", "twink/ofp5/parse.py:ofp_action_header", "twink/ofp5/parse.py:ofp_port_mod", "twink/ofp5/parse.py:ofp_port_mod_prop_header", "twink/ofp5/parse.py:ofp_role_status", "twink/ofp5/parse.py:ofp_meter_mod", "twink/ofp5/parse.py:ofp_bundle_add_msg"]}
{"id": "C76", "title": "OpenFlow 1.4 messages have the layout of the standard", "statement": "Every message built by the OpenFlow 1.4 builders consists, byte by byte, of the structures of the OpenFlow 1.4.0 specification: each field at its offset with its width in network byte order, zero padding, nested structures and messages in order, all lengths right.", "quantifier": "all builder calls with all arguments, nested lists and messages to any depth", "why_tests_cant": "Unbounded arguments; a round trip with the own parser would not notice a wrong layout.", "anchors": ["twink/ofp5/build.py:ofp_flow_mod", "twink/ofp5/build.py:ofp_table_status", "twink/ofp5/build.py:ofp_port", "twink/ofp5/build.py:ofp_flow_update_full", "twink/ofp5/build.py:ofp_bundle_add_msg", "twink/ofp5/build.py:ofp_port_stats_prop_experimenter", "twink/ofp5/build.py:ofp_instruction_actions"]}
{"id": "C77", "title": "Enumerations define what they declare", "statement": "The constants defined by an enumeration are exactly those its prefix and declared names and numbers give; `name` maps a value back to a constant with that value and knows exactly the declared values; `keys` and `values` list the declared pairs; `bitnames` gives exactly the names of the declared flags set in a value.", "quantifier": "all enumerations (texts, dictionaries in every iteration order), all scopes, all values", "why_tests_cant": "Arbitrary declarations and values; the order of a dictionary differs between interpreters.", "anchors": ["twink/ofp5/__init__.py:_enum_base", "twink/ofp4/__init__.py:_enum_base"]}
{"id": "C78", "title": "Constants have the values of the standard", "statement": "Every constant of the OpenFlow 1.3 and 1.4 header files is defined by the packages with the value of the standard.", "quantifier": "all constants, all dictionary orders, all previous contents of the module scope", "why_tests_cant": "Tests use the same constants on both sides and never notice a wrong value.", "anchors": ["twink/ofp4/__init__.py", "twink/ofp5/__init__.py"]}
{"id": "C79", "title": "OpenFlow 1.4 match fields", "statement": "OXM fields of OpenFlow 1.4 are built as the standard says, parsed back to what was built, parsed bytes are rebuilt to the same bytes, and parsing ends on every input; field numbers are those of the standard.", "quantifier": "all fields, values, masks, lists of fields, all byte strings", "why_tests_cant": "Unbounded lists and inputs.", "anchors": ["twink/ofp5/oxm.py:build", "twink/ofp5/oxm.py:parse", "twink/ofp5/oxm.py:parse_list", "twink/ofp5/oxm.py:_bits"]}
{"id": "C80", "title": "Fields of a frame", "statement": "`ofptuple` takes from every Ethernet frame the twelve fields on which OpenFlow 1.0 matches; it gives a result for every frame of minimum length and looks at the first 46 bytes only.", "quantifier": "all frames: addresses, tags, IPv4 with any header and payload, ARP, other types; all byte strings", "why_tests_cant": "Unbounded frames; options, fragments and SNAP headers are rare in tests.", "anchors": ["twink/ofp5/__init__.py:ofptuple", "twink/ofp4/__init__.py:ofptuple"]}
{"id": "C81", "title": "Socket files of jack-in and monitor servers", "statement": "While a ParentChannel is open there is exactly one socket file for each helper server it has started, named after the datapath that the switch announced last; closing the channel leaves the directory as it was before; files of other channels are never touched.", "quantifier": "all sequences of messages, all interleavings of receiving with any number of closes, all directories", "why_tests_cant": "Depends on the order of features replies and on the point at which another thread closes the channel.", "anchors": ["twink/base.py:helper_path", "twink/base.py:ParentChannel.close", "twink/base.py:ParentChannel.recv", "twink/base.py:jackin_server", "twink/base.py:monitor_server"]}
{"id": "C82", "title": "The datagram server handles every datagram", "statement": "DgramServer hands every datagram to the channel of its sender, and closes its socket when it ends.", "quantifier": "all traffic", "why_tests_cant": "Tests would have to start a datagram server, which none does.", "anchors": ["twink/base.py:DgramServer"]}
{"id": "C83", "title": "The log of a channel is complete", "statement": "The lines of LoggingChannel determine the messages: those of the receive log are exactly the messages that recv returned, in order, those of the send log exactly the messages sent; one line for each closing.", "quantifier": "all sequences of calls, all messages, all interleavings of threads that close", "why_tests_cant": "Unbounded sequences, and a race of two closes.", "anchors": ["twink/base.py:LoggingChannel", "twink/base.py:ParallelChannel.close"]}
{"id": "C84", "title": "serve_forever stops what it has started", "statement": "Whenever serve_forever ends, every server that it has started has been told to stop.", "quantifier": "all lists of servers, whatever their start and stop raise, however waiting ends", "why_tests_cant": "Needs servers that fail to start or stop.", "anchors": ["twink/sched_basic.py:serve_forever", "twink/sched_gevent.py:serve_forever"]}
{"id": "C85", "title": "use_gevent selects the gevent scheduler", "statement": "After use_gevent() the attributes of sched come from sched_gevent; sched offers exactly the seven names of the scheduler modules, among them all that the package uses.", "quantifier": "all numbers of calls, all names", "why_tests_cant": "The tests pass with either scheduler.", "anchors": ["twink/base.py:use_gevent", "twink/base.py:_sched_proxy"]}
{"id": "C86", "title": "Rebuilding a parsed OpenFlow 1.4 message gives the same bytes", "statement": "If an OpenFlow 1.4 message built by the library is parsed and the resulting tuple is handed to the builder of its class again, the same bytes result.", "quantifier": "all builders, all arguments, all depths of nested messages, at every place of the message in a buffer", "why_tests_cant": "All nested structures and field values; needs class names, numbers of fields, defaults, lengths and padding of builder and parser to agree.", "anchors": ["twink/ofp5/build.py:_obj", "twink/ofp5/parse.py:parse", "twink/ofp5/parse.py:ofp_requestforward_", "twink/ofp5/parse.py:ofp_table_features"]}
{"id": "C87", "title": "Both versions of the CORD pipeline treat every packet alike", "statement": "The graph that cord_softswitch_pipeline builds does the same to every packet as the graph that cord_softswitch_pipeline.bess builds.", "quantifier": "all packets and metadata, all choices BESS leaves open (hash, encapsulation, bytes after the end, default gate)", "why_tests_cant": "Two scripts of several hundred lines would have to be compared on every combination of fields.", "anchors": ["cord_softswitch_pipeline:run_module_command", "cord_softswitch_pipeline.bess"]}
{"id": "C88", "title": "The CORD pipeline does what the flow entries of its comments say", "statement": "Every frame leaves the graph by the port, to LOCAL, to the controller or not at all, with the tunnel and the rewritten fields, as the flow entries quoted in the comments prescribe by the rules of OpenFlow.", "quantifier": "all frames (tagged or not, IPv4, ARP, other types), all ports and tunnel ids", "why_tests_cant": "The space of frames; entries overlap and are told apart by priorities.", "anchors": ["cord_softswitch_pipeline.bess", "cord_softswitch_pipeline"]}
{"id": "C89", "title": "The CORD pipeline is set up and every packet leaves it", "statement": "Both scripts run to their end; every packet is done with after a bounded number of modules and leaves by ports 1 to 4, LOCAL or the controller or is dropped; what leaves by port 1 has a tunnel; what goes to LOCAL or the controller is unchanged.", "quantifier": "all packets, all choices BESS leaves open", "why_tests_cant": "All packets; needs that the graph has no cycle and that every gate in use is connected.", "anchors": ["cord_softswitch_pipeline", "cord_softswitch_pipeline.bess"]}
{"id": "C90", "title": "The switching hub delivers frames", "statement": "Once its tables are set up, a frame to a group address goes to all other ports, one to a host to all other ports or to one where the host has been seen, never back; a host that keeps to one port gets every frame for it.", "quantifier": "all orders of frames, threads and timeouts", "why_tests_cant": "Interleavings of handler threads, frames and expiring entries.", "anchors": ["test/example_controller_switchinghub.py:TestChannel.handle", "test/example_controller_switchinghub.py:TestChannel.handle_async"]}
{"id": "C91", "title": "The switching hub finds a host where it was last seen", "statement": "After a frame of a host at a port, once no thread is at work for the host and as long as its entries have not expired, frames for the host go to that port.", "quantifier": "all orders of frames, threads and timeouts", "why_tests_cant": "Needs hosts that move, threads that overtake each other and entries that expire in a certain order.", "anchors": ["test/example_controller_switchinghub.py:TestChannel.handle_async"]}
{"id": "C92", "title": "The example switch answers requests", "statement": "However the bytes of a controller arrive, the example switch says hello, then sends exactly one reply per request, of the right type, with the id of the request, in the order of the requests, and nothing else.", "quantifier": "all sequences of messages, all ways of splitting the stream", "why_tests_cant": "Needs every message and every split of the stream; a test sees a few.", "anchors": ["test/example_switch.py:switch_proc", "twink/base.py:OpenflowServerChannel.loop", "twink/base.py:AutoEchoChannel.handle_proxy"]}
{"id": "C93", "title": "A switch and a controller with a common version understand each other", "statement": "If the controller speaks 1.3, the switch of the example and the agent agree on 1.3 with it and go on to handle its requests.", "quantifier": "all greetings with version 1.3 in them, all later messages", "why_tests_cant": "Depends on the version in the header of a greeting that is otherwise valid.", "anchors": ["twink/base.py:OpenflowChannel.recv", "test/example_switch.py:switch_proc", "bess_of_agent.py:switch_proc", "twink/ofp4/parse.py:parse"]}
{"id": "C94", "title": "Lengths inside a parsed OpenFlow 1.4 message agree with its contents", "statement": "Whenever the OpenFlow 1.4 parser accepts a structure, the structure's length field is the number of bytes its contents take up: the elements of an instruction, bucket, statistics record or message, and nested messages, end exactly where the enclosing structure says it ends.", "quantifier": "all byte strings that are parsed without exception, all offsets", "why_tests_cant": "Round-trip tests only use messages whose lengths are right; the property is about every byte string a peer might send.", "anchors": ["twink/ofp5/parse.py:_list_fetch", "twink/ofp5/parse.py:ofp_flow_mod", "twink/ofp5/parse.py:ofp_instruction_actions", "twink/ofp5/parse.py:ofp_bucket", "twink/ofp5/parse.py:ofp_packet_out", "twink/ofp5/parse.py:ofp_requestforward_", "twink/ofp5/parse.py:ofp_bundle_add_msg", "twink/ofp5/parse.py:ofp_async_config"]}
{"id": "C95", "title": "Reply callbacks are released when their requests have been answered", "statement": "Once every request of the controller has been answered and the answers have been handled, the controller's channel remembers no reply callback, and what the switch sends of its own accord afterwards goes to the channel's own handlers; meanwhile the number of records is bounded by the number of outstanding barrier requests.", "quantifier": "all interleavings of sends, work of the switch and deliveries", "why_tests_cant": "A left-over record shows only through an unsolicited message at the right moment after the last reply; growth only after long runs.", "anchors": ["twink/base.py:ControllerChannel.send", "twink/base.py:ControllerChannel.handle_proxy"]}
{"id": "C96", "title": "A server's socket is of the right type and bound to the address asked for", "statement": "Whatever address a server is given, it listens on a socket of its own type (stream or datagram) that is bound to an address of that type belonging to the given name or path; if one of those addresses can be used, the server starts, and otherwise its constructor raises an exception.", "quantifier": "all arguments, all answers of name resolution and of the operating system", "why_tests_cant": "Depends on what name resolution returns and which addresses are usable on a machine.", "anchors": ["twink/base.py:bound_socket", "twink/base.py:stream_socket", "twink/base.py:dgram_socket"]}
{"id": "C97", "title": "A channel that is attached to a new connection starts afresh", "statement": "Whenever a channel is attached to a connection, it sends its greeting there first, starts without a negotiated version, and the messages it yields are those sent on that connection.", "quantifier": "all histories of a channel, all contents of the connections", "why_tests_cant": "Needs a second connection on the same channel, broken off at any byte of the first.", "anchors": ["twink/base.py:Channel.attach", "twink/base.py:OpenflowChannel.attach", "twink/base.py:OpenflowChannel.start", "twink/base.py:OpenflowBaseChannel.recv"]}
{"id": "C98", "title": "Simple synchronous calls return the reply or raise", "statement": "echo, feature, get_config and barrier send a request of the right type with the negotiated version and return the reply of the matching type that carries the id of the request; if the switch answers with an error, the caller gets an exception that carries it; without an answer, ChannelClose.", "quantifier": "all versions, all ids, all interleavings with other callers and with the receiving thread, all messages received", "why_tests_cant": "Depends on what arrives with the id of the request, and when.", "anchors": ["twink/base.py:SyncChannel._sync_simple", "twink/base.py:SyncChannel.echo", "twink/base.py:SyncChannel.feature", "twink/base.py:SyncChannel.get_config", "twink/base.py:SyncChannel.barrier"]}
{"id": "C99", "title": "Receiving never fails on account of a synchronous request", "statement": "Whatever callers of synchronous requests do at the same time, receiving a well-framed message on a synchronous channel stores it for the caller that waits for its id, wakes that caller just if the reply is complete, passes it on otherwise, and never raises.", "quantifier": "all interleavings of callers and the receiving thread, all messages", "why_tests_cant": "The failure needs a timeout between two look-ups of the receiving thread.", "anchors": ["twink/base.py:SyncChannel.recv", "twink/base.py:SyncChannel.send_sync"]}
{"id": "C100", "title": "Reading the property ports returns the ports of the switch", "statement": "Whatever threads read `ports` at the same time, only well-formed requests for the list of ports are sent, and none once the list is known; what is returned describes all ports of the switch as they were at some moment between the call and its end.", "quantifier": "all numbers of threads, all interleavings with the receiving thread, all messages of a correct switch before, between and after its answers", "why_tests_cant": "Interleavings of several callers, timeouts, partial replies and port events.", "anchors": ["twink/base.py:PortMonitorChannel.ports", "twink/base.py:PortMonitorChannel.recv", "twink/base.py:PortMonitorChannel.close"]}
{"id": "C101", "title": "What stands before a message does not matter to the parser", "statement": "`parse(message, offset)` of OpenFlow 1.3 and 1.4, and of their match fields, gives the same result, value or error, whatever bytes come before the offset, and moves the cursor by as much.", "quantifier": "all buffers, all prefixes, all message types, nested messages", "why_tests_cant": "Every parse function computes limits and slices from offsets, and tests parse at offset 0.", "anchors": ["twink/ofp4/parse.py:parse", "twink/ofp5/parse.py:parse", "twink/ofp4/oxm.py:parse_list", "twink/ofp5/oxm.py:parse_list"]}
{"id": "C102", "title": "What follows a message does not matter to the parser", "statement": "A message that is parsed when it is alone is parsed to the same when more bytes follow it, and one that is refused when alone is refused then too; so a buffer of several messages can be parsed message by message.", "quantifier": "all messages of OpenFlow 1.3 and 1.4, all bytes that follow", "why_tests_cant": "Tests parse buffers that end with the message.", "anchors": ["twink/ofp4/parse.py:parse", "twink/ofp5/parse.py:parse"]}
{"id": "C103", "title": "A temporary read wrapper is in force within its block, and only there", "statement": "Reads of a channel inside a block `with ReadWrapper(channel, w)` go through w, reads outside of all blocks through the wrapper that the channel had before, and when no block is open any more the channel has that wrapper again, also after exceptions and whatever threads use such blocks.", "quantifier": "all programs of nested and sequential blocks, reads and exceptions; all wrappers; all interleavings of blocks of several threads", "why_tests_cant": "The tests use one block at a time in one thread; nested blocks, objects used twice and overlapping blocks of threads form an unbounded family.", "anchors": ["twink/base.py:48-66", "twink/base.py:121-126"]}
{"id": "C104", "title": "All parts of the package read and write greetings alike", "statement": "Four places of the package deal with the version bitmaps of HELLO messages: hello and parse_hello of base.py, and the hello builders, parsers and from_bitmap of ofp4 and ofp5. They agree. (1) from_bitmap lists, in ascending order and without duplicates, exactly the versions v such that bit v mod 32 of word v div 32 is set. (2) Whatever bytes a peer sends: if ofp4.parse (ofp5.parse) accepts a message of type 0, then base.parse_hello accepts it too, and its result is the versions which from_bitmap makes of the first bitmap in the parsed message, or the version of the header if the message has no element. (3) The greeting that a channel sends whose highest accepted version is 1.3 (1.4) is, byte for byte, what ofp4.build.ofp_hello (ofp5.build.ofp_hello) builds from one bitmap word, ofp4.parse (ofp5.parse) reads it as a HELLO with that one word, and from_bitmap of that word is the set of accepted versions. (4) A greeting with another highest version is refused by the parser with AssertionError. (5) What ofp_hello builds from any readable elements, base.parse_hello reads as from_bitmap of the first.", "quantifier": "all byte strings, all words, all lists of words, all version arguments, all transaction ids, all lists of hello elements", "why_tests_cant": "the number of bitmap words, the words and the messages of peers are unbounded; the agreement is between separately written functions over all byte strings", "anchors": ["twink/ofp4/parse.py:36-42", "twink/ofp4/parse.py:992-1023", "twink/ofp5/parse.py:35-41", "twink/ofp5/parse.py:1425-1456", "twink/base.py:278-313"]}
{"id": "C105", "title": "The stream server handles the messages of every client", "statement": "However the accept loop, the threads of the connections, stop() and calls of close() are interleaved: the messages handed to the handler of a connection followed by what its buffer holds are the bytes that the connection's own transport has handed over. If these bytes are well-formed messages followed by an unfinished one, the handler has been given an initial segment of these messages, each once and whole, in order; all of them when the connection is waiting for its transport; and, if the handler always returns, also when the loop of the connection has ended, be it by end of stream, by stop(), or because somebody closed the channel.", "quantifier": "all interleavings of steps, all numbers of clients, all ways the transports cut their streams, all messages", "why_tests_cant": "interleavings of unboundedly many threads and all splits of all streams; tests run one schedule", "anchors": ["twink/base.py:607-657", "twink/base.py:145-176", "twink/base.py:316-326"]}
{"id": "C106", "title": "Any number of threads may wait for a task's outcome", "statement": "When several threads call Threadlet.get() on the same spawned task, in any interleaving, each call that ends without timeout reports how the function ended (its value, or its exception), and once the function has ended every waiting call can end. (False of the code: of two overlapping calls one may return None, raise AttributeError or wait for ever; what holds: nothing false is ever reported, an exception is raised at most once, calls that do not overlap all return the value and end, and so do calls made after one has stored the value.)", "quantifier": "all interleavings of the task's thread with any number of calls of get, all outcomes, all timeouts", "why_tests_cant": "which call loses depends on the schedule; tests call get from one thread", "anchors": ["twink/sched_basic.py:17-54"]}
{"id": "C107", "title": "However channel classes are combined, every layer takes part once", "statement": "Users combine the channel classes by multiple inheritance, and every method hands over to the next class by super. For every program that Python accepts - the class statements of the library followed by any class statements of users, whose methods are absent or call super once - and for every class of it: the method resolution order contains the ancestors of the class, each once, every class before its bases and the bases in the order in which they are listed. A call of __init__, attach, send, recv or close on an object runs the method of every class among its ancestors that has one, each exactly once, in that order, and ends in the method of Channel (OpenflowBaseChannel for recv).", "quantifier": "all programs of class statements, all classes in them, all choices of which users' classes override a method", "why_tests_cant": "The combinations of mixins are infinitely many; the tests use a handful of them.", "anchors": ["twink/base.py:69-1131", "twink/ovs.py:44", "twink/ovs.py:138", "twink/__main__.py:18"]}
{"id": "C108", "title": "Combined channels answer echo requests", "statement": "On every channel that has AutoEchoChannel among its classes, whatever other channel classes it is combined with and whatever has been sent before, an ECHO_REQUEST is answered by an ECHO_REPLY of the negotiated version with the same length, transaction id and payload.", "quantifier": "all programs of class statements, all classes in them derived from AutoEchoChannel, all states of the controller's bookkeeping, all versions and messages", "why_tests_cant": "It depends on the order of the classes and on requests that are outstanding; the test of AutoEchoChannel uses that class alone.", "anchors": ["twink/base.py:334-346", "twink/base.py:434-471", "twink/base.py:537-559", "twink/__main__.py:18", "twink/ovs.py:175-184"]}
{"id": "C109", "title": "Handlers of parallel channels run outside the receiving thread", "statement": "On every channel that has ParallelChannel among its classes, whatever other channel classes it is combined with, handle and handle_async are called in threads of their own or by the rate limiter, never in the receiving thread.", "quantifier": "all programs of class statements, all classes in them derived from ParallelChannel, all states, all messages of at least header size", "why_tests_cant": "It depends on the order of the classes; a handler in the receiving thread works until it waits for a reply or raises.", "anchors": ["twink/base.py:434-471", "twink/base.py:523-559", "twink/base.py:704", "twink/base.py:836", "twink/base.py:932"]}
{"id": "C110", "title": "The handler that a user's class defines is called", "statement": "On an object of any class made of channel classes and users' classes, self.handle is the handle of a user's class that defines one, unless a class before it in the order defines another; the empty handle of OpenflowServerChannel, which warns 'check MRO', is not reached. The channels that ParentChannel makes for its clients use the handle of JackinChildChannel or ChildChannel.", "quantifier": "all programs of class statements, all classes in them, all choices of which users' classes define handle", "why_tests_cant": "It depends on the order of the classes.", "anchors": ["twink/base.py:330-332", "twink/base.py:755-779", "twink/base.py:802-803", "twink/base.py:819-822"]}
{"id": "C111", "title": "OpenFlow 1.3 messages are built from exactly the arguments that fit", "statement": "A builder of an OpenFlow 1.3 structure or message returns bytes if and only if its arguments can be written in the fields of the wire format: every number is within the width of its field, types given agree with the structure, nested sequences fit, and no length exceeds 65535; otherwise it raises an exception.", "quantifier": "all builders, all header arguments, all field values, all nested sequences", "why_tests_cant": "Every boundary of every field and every combination of nested lengths; tests show that a few calls succeed, not that no legal call is refused and no illegal one accepted.", "anchors": ["twink/ofp4/build.py:ofp_", "twink/ofp4/build.py:ofp_switch_config", "twink/ofp4/build.py:ofp_queue_prop_min_rate", "twink/ofp4/build.py:ofp_table_feature_prop_next_tables", "twink/ofp4/build.py:ofp_multipart_request", "twink/ofp4/build.py:ofp_aggregate_stats_request"]}
{"id": "C112", "title": "OpenFlow 1.4 messages are built from exactly the arguments that fit", "statement": "A builder of an OpenFlow 1.4 structure or message returns bytes if and only if its arguments can be written in the fields of the wire format (numbers within their widths, types that agree with the structure, nested messages and sequences that fit, lengths up to 65535); the bytes are then those of the wire format with a fixed list of deviations; in every other case there is an exception.", "quantifier": "all builders, all header arguments, all field values, all nested sequences and messages", "why_tests_cant": "Every boundary of every field and every combination of nested lengths and messages; tests show that a few calls succeed, not that no legal call is refused, no illegal one accepted, and no byte of any result is off.", "anchors": ["twink/ofp5/build.py:ofp_", "twink/ofp5/build.py:ofp_meter_mod", "twink/ofp5/build.py:ofp_role_status", "twink/ofp5/build.py:ofp_port_status", "twink/ofp5/build.py:ofp_async_config", "twink/ofp5/build.py:ofp_table_mod", "twink/ofp5/build.py:ofp_multipart_request"]}
{"id": "C113", "title": "The OpenFlow 1.3 parser reads exactly the messages of the wire format", "statement": "parse(message, offset) of OpenFlow 1.3 returns a value if and only if the structures of the wire format stand at the offset - every field at its offset, every list filling the room given for it - and the value is the one that stands there; it runs for ever exactly if a list contains an item that does not end behind its beginning; in every other case there is an exception.", "quantifier": "all buffers, all offsets, all values", "why_tests_cant": "Tests read back a few messages that were built before; that nothing else is accepted, and that no byte of any accepted buffer is read from a wrong place, is a statement about all buffers.", "anchors": ["twink/ofp4/parse.py:parse", "twink/ofp4/parse.py:_list_fetch", "twink/ofp4/parse.py:ofp_action_", "twink/ofp4/parse.py:ofp_instruction_", "twink/ofp4/parse.py:ofp_multipart_reply", "twink/ofp4/parse.py:ofp_port", "twink/ofp4/parse.py:ofp_port_stats"]}
{"id": "C114", "title": "Exactly what the OpenFlow 1.4 parser reads", "statement": "For every buffer and offset the parser returns a message if and only if that message stands there by the rules of the wire format, up to the end that the rules give; it raises an exception if and only if nothing stands there; it fails to end if and only if a list in the message, or in a message nested in it, has an item that does not advance. Every structure of the standard is read.", "quantifier": "all byte strings, all offsets, all messages of all types, nested to any depth", "why_tests_cant": "The equivalence covers every buffer in both directions, including those that make the parser loop.", "anchors": ["twink/ofp5/parse.py:parse", "twink/ofp5/parse.py:ofp_port", "twink/ofp5/parse.py:ofp_action_header", "twink/ofp5/parse.py:ofp_instruction_", "twink/ofp5/parse.py:ofp_table_features", "twink/ofp5/parse.py:ofp_multipart_request", "twink/ofp5/parse.py:ofp_multipart_reply", "twink/ofp5/parse.py:ofp_bundle_add_msg", "twink/ofp5/parse.py:ofp_role_status"]}
{"id": "C115", "title": "The workers of the datapath are not left stopped", "statement": "Adding and deleting devices pauses the workers of the BESS daemon; whichever calls of the daemon fail, once add_port or del_port is over, by returning or by an exception, the workers run again if they ran before.", "quantifier": "all states of the daemon and of the switch, all histories of additions, deletions and messages, every pattern of failing calls", "why_tests_cant": "The failures can come at any call and of any kind; the claim covers all patterns and histories, and the exact condition is an equivalence.", "anchors": ["bess_of_agent.py:init_pktinout_port", "bess_of_agent.py:deinit_pktinout_port", "bess_of_agent.py:PortManager.add_port", "bess_of_agent.py:PortManager.del_port"]}
{"id": "C116", "title": "Deleting a device undoes what adding it did to the datapath", "statement": "After a device is added and deleted again, the daemon has exactly the ports, modules, links and connected sockets it had before, and the switch lists the ports it listed before.", "quantifier": "all states of the daemon and of the switch, all device names and addresses, all patterns of failing calls, all later histories", "why_tests_cant": "The state before is arbitrary, and what a failure leaves behind must be followed through every later history.", "anchors": ["bess_of_agent.py:init_pktinout_port", "bess_of_agent.py:deinit_pktinout_port", "bess_of_agent.py:PortManager.add_port", "bess_of_agent.py:PortManager.del_port"]}
{"id": "C117", "title": "What is sent to a port of the switch leaves at the device of that name", "statement": "After the main program has set up the daemon, and after any history of additions, deletions and messages, a packet sent on the socket of a listed port passes through the modules of the datapath and leaves at the device with the name of that port, and at no other.", "quantifier": "all orders of iteration, all daemons just started, all histories, all patterns of failing calls during set-up and additions, all listed ports", "why_tests_cant": "The wiring is built up and taken down by calls that may fail; the claim is an invariant of all histories and an equivalence over all devices.", "anchors": ["bess_of_agent.py:__main__", "bess_of_agent.py:init_pktinout_port", "bess_of_agent.py:deinit_pktinout_port", "bess_of_agent.py:PortManager.add_port", "bess_of_agent.py:PortManager.del_port", "bess_of_agent.py:switch_proc"]}
{"id": "C118", "title": "A request to a switch of this project gets the reply of that switch to this request", "statement": "A controller with any number of threads and one of the two switches of the project share a connection, and all of them move independently. A call of send_sync returns exactly the message that the switch sent when it handled this very request, a whole reply of the type required by the standard and with the id of the request, or None after a timeout. A call that waits gets its reply: the network comes to rest after a bounded number of steps, and then the call returns the reply.", "quantifier": "all handlers of the stated kind and both switches of the project, all interleavings of all threads of the controller, the switch and the transport, all requests, all timeouts", "why_tests_cant": "The number of interleavings of the threads on both sides is unbounded, and the failures need a late reply or a message of the switch at one particular moment.", "anchors": ["twink/base.py:SyncChannel.send_sync", "twink/base.py:SyncChannel.recv_sync", "twink/base.py:AutoEchoChannel.handle_proxy", "test/example_switch.py:switch_proc", "bess_of_agent.py:switch_proc"]}
{"id": "C119", "title": "multi works with the switches of this project", "statement": "Messages sent with multi to one of the two switches of the project are handled by the switch, and multi returns one result for each of them.", "quantifier": "all handlers that answer no barrier and both switches of the project, all lists of messages, all interleavings, also with the channel closed at any time", "why_tests_cant": "That a call never returns, under any interleaving and with any messages, is a statement about all infinite executions.", "anchors": ["twink/base.py:SyncChannel.multi", "twink/base.py:SyncChannel.barrier", "test/example_switch.py:switch_proc", "bess_of_agent.py:switch_proc"]}
{"id": "C120", "title": "rule2ofp returns the flow modifications of its rules and leaves no server behind", "statement": "rule2ofp(*rules) returns the flow modification messages that ovs-ofctl makes of the rules, all of them and in the order of the rules, and runs one ovs-ofctl per rule; if ovs-ofctl understands all rules it does not raise; when it has returned or raised, the server it started stops accepting and its listening socket is closed.", "quantifier": "for all lists of rules, all versions and addresses, all messages and barrier ids of ovs-ofctl and all interleavings of the caller, the thread of start(), the accept loop, the ovs-ofctl processes and the thread of the connection", "why_tests_cant": "Four threads and a process per rule interleave in infinitely many ways. The race between spawn(serv.start) and stop() shows up only when the new thread is late.", "anchors": ["twink/ovs.py:11-45", "twink/base.py:600-660", "twink/sched_basic.py:40-60"]}
{"id": "C121", "title": "The controller knows the ports of the software switch though they change while it asks", "statement": "The agent's two threads share the dictionary of ports without a lock. However the steps of add_port, del_port and of the answers to requests for the port descriptions interleave, every request is answered, and when both threads are at rest a controller that takes over the last description and follows the PORT_STATUS messages knows exactly the ports there are.", "quantifier": "for all proper port tables, all layouts of the dictionary, all histories of additions, deletions and requests and all interleavings of the two threads", "why_tests_cant": "A test runs one interleaving; the windows are a few bytecodes wide, and what goes wrong depends on where in the loop over the dictionary the other thread gets its turn.", "anchors": ["bess_of_agent.py:122-185", "bess_of_agent.py:199-254"]}
{"id": "C122", "title": "The software switch keeps serving its controller", "statement": "The agent waits until the controller can be reached and then serves it: whatever requests the controller sends, in whatever order, they are answered; after the connection has been lost the agent connects again; and the calls of the port manager take effect whether or not the controller is there.", "quantifier": "for all tables at the start, all outcomes of the attempts to connect, all sequences of messages, calls of the port manager, hang-ups and failures of the connection", "why_tests_cant": "The claim is about everything that can happen during an unbounded life: which messages are fatal depends on the flows and ports collected by then, and a test sees a few short lives.", "anchors": ["bess_of_agent.py:188-211", "bess_of_agent.py:218-254", "bess_of_agent.py:298-306", "twink/base.py:316-326"]}
