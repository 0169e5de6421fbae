# Formal model of twink — design

## Purpose and method

`/repo` (twink, a Python OpenFlow channel/codec library, plus `bess_of_agent.py`) is read as text.
The Lean 4 project in `lean/` contains

* a **model**: Lean functions that mirror the Python functions branch by branch, each citing file and lines,
* a **specification** for each property, stated without the model's helper functions,
* **theorems** connecting the two, quantified over all inputs / states / executions.

Python exceptions are values (`Except Err α`, `Err` names the exception class).  Non-terminating loops are
modelled either by an explicit "step" relation/function with fuel where `none` means "still running", so that
"loops forever" is a provable statement (`∀ fuel, run fuel = none`), or by a structural/well-founded
recursion where termination is itself proved.

The code is Python 2 era (`print` statements in `bess_of_agent.py`, `os.errno`, `str` used as bytes, `/` on ints used as
integer division).  The model follows **Python 2.7** semantics.

## Trusted base

* Lean's kernel (4.33.0) and the standard axioms `propext`, `Classical.choice`, `Quot.sound`.  No other axioms, no `sorry`,
  no `native_decide`/`bv_decide`, no `implemented_by`/`unsafe`.
* The axioms of each theorem of `MANIFEST.json` are listed in `AXIOMS.md` (written by `tools/axioms.py`); all are among the three above.
* The correspondence between model and Python text is by reading: every definition cites the lines it mirrors.
* The semantics given to the Python primitives used: `struct.pack/unpack_from/calcsize` for `!` formats with
  `B H I Q`, `<n>s`, `<n>x`; list/dict/set operations; `max`; slicing; `weakref.ref` (a reference that can become `None` at any time);
  `threading.Event`, `threading.RLock` (mutual exclusion, reentrant); `socket.recv` (an arbitrary sequence of results).
* What the modules of BESS do to packets, and pcap filters (C87–C89), as written at the head of `Model/Cord.lean`.

## What is modelled, per file

| file | Lean modules (`Verif/Model/…`) | modelled | not modelled |
|---|---|---|---|
| `twink/base.py` | `Framing`, `Hello`, `Xid`, `Server`, `Controller`, `Sync`, `Ports`, `Chan`, `Parent`, `Rate`, `StreamServer`, `Parallel`, `Sending`, `Helper`, `Logging`, `Dgram`, `Serve`, `Bound`, `Attach`, `SyncSimple`, `PortsCall`, `Wrap`, `Mro`, `Layers` | framing, read wrappers, hello/negotiation, xid generation, header helpers, server loop, auto echo, controller sequencing, features reply, rate limiter, sync channel, port monitor, parent/monitor/jack-in forwarding, channel open/close, `StreamServer` (accept loop, connection threads, `stop`), `ParallelChannel.handle_proxy`, `Channel.send` on stream sockets, socket files of helper servers, `LoggingChannel`, `DgramServer`, `_sched_proxy`, `bound_socket`, combinations of channel classes | other log lines, thread scheduling fairness, gevent itself |
| `twink/sched_basic.py` | `Threadlet`, `Gets`, `Serve` | `Threadlet.get`, `serve_forever` | signals, real threads |
| `twink/sched_gevent.py` | `Serve` | `serve_forever` | gevent itself |
| `twink/ovs.py` | `Ovs`, `Rule2` | `_make_ofctl_options`, `AutoPacketOut.handle_async`, `rule2ofp`: its handler, its server, its threads and the `ovs-ofctl` processes as it sees them (they connect, say hello, send flow modifications and a barrier request and wait for the reply) | what `ovs-ofctl` makes of the text of a rule (a parameter), failing sockets |
| `twink/ofp4/build.py`, `parse.py` | `Of13Types`, `Of13Build`, `Of13Parse`, `Of13Obj`, `Bitmap` | all builders and parsers of messages, matches, actions, instructions, buckets, bands, queues, multipart records; `_obj` on byte strings, tuples and `None` | arbitrary callables as arguments; textual helpers other than `from_bitmap` |
| `twink/ofp4/oxm.py` | `Oxm` | `build`, `parse`, `build_list`, `parse_list`, field tables, NXM/Stratos | textual helpers |
| `twink/ofp5/build.py`, `parse.py` | `Of14Types`, `Of14Build`, `Of14Parse`, `Of14Obj` | all builders and parsers of messages, matches, actions, instructions, buckets, bands, properties, multipart records; nested messages to any depth; `_obj` on what the parser returns | arbitrary callables as arguments; textual helpers; Python's recursion limit (about 1000 nested messages) |
| `cord_softswitch_pipeline`, `cord_softswitch_pipeline.bess` | `Cord` | modules, connections and rules of both scripts as lists of operations; what the modules of BESS do to a packet (`WildcardMatch`, `ExactMatch`, `BPF`, `Update`, `SetMetadata`, `VLANPop`, `HashLB`, `Sink`), taken from the documentation of BESS and pcap-filter(7); parameters (`Env`) for what that leaves open | `VXLANEncap`, `IPEncap`, `EtherEncap` (any function), ports, workers, `main` and its options, the connection to the BESS daemon |
| `test/example_controller_switchinghub.py` | `Hub` | `handle`, `handle_async` as sequences of calls of `ofctl` in threads, and the tables of the switch they fill (semantics of OpenFlow 1.3 in Open vSwitch assumed) | texts given to `ovs-ofctl`, lookup of `in_port` in the match (C45 has the parser), errors of `ovs-ofctl` |
| a controller and a switch on one connection | `Wired` | `SyncChannel` with any number of threads, the switch of `Session`, two queues of messages | end of the connection, failing writes of the switch |
| `test/example_switch.py`, channel of `bess_of_agent.py` | `Session` | `switch_proc` and the whole channel: framing, negotiation, echo, loop | logging, partial writes, the server around it |
| `twink/ofp5/oxm.py` | `Oxm14` | `_bits`, `build`, `parse`, `parse_list` | |
| `twink/ofp4/__init__.py`, `ofp5/__init__.py` | `Enum`, `Consts` | `_enum_base`; all enumerations of the packages and of their `oxm` modules | attributes of other types than `None`, `str`, `dict` (ValueError in the code, do not occur) |
| same files, `ofptuple` | `OfpTuple` | all of it | |
| `bess_of_agent.py` L122-254, two threads | `Race` | interleaved steps of `add_port`, `del_port` and the listing of ports; the dictionary as CPython's slot table; how the table is rearranged by an insertion is left open | calls of BESS that raise (see `Agent`), other requests |
| `bess_of_agent.py` L188-211, L218-254, L298-306 | `Life` | attempts to connect, the loop and how it ends, calls of the port manager with and without a connection; a handler or a call runs as a whole (for the interleavings see `Race`) | signals, `print_stupid`, exceptions in zerorpc, partial writes |
| `bess_of_agent.py` | `Agent` | `switch_proc`, `PortManager`, packet output as an effect | BESS RPC calls (environment: may succeed or raise), zerorpc |
| `bess_of_agent.py` L60-119, L214-254, L275-296 | `BessSide` | the BESS RPC calls of `init_phy_port`, `init_pktinout_port`, `deinit_pktinout_port`, `add_port`, `del_port` and of the main program, one by one; each may raise; ports, modules, links, sockets and workers of the daemon | a call that raises is assumed to have changed nothing; what the daemon refuses by itself is limited to duplicate and missing names and ports in use; gates; `cleanup` |

Common simplifications:

* bytes are `List UInt8`; Python ints passed to builders are `Nat` (negative ints, which make `struct.pack` raise, are not represented);
* string fields of namedtuples are byte strings;
* object identity of callbacks is a natural number; "alive" is a predicate chosen by the environment.

## Per-property plan

| id | model | proof idea |
|---|---|---|
| C01 | `recv` as a function of (buffer, list of read results) | induction over the read list; split independence via concatenation |
| C02 | same | invariant "returned ++ buffer = delivered" by induction over recv calls |
| C03 | same, with number of consumed reads | case analysis of `recv` |
| C04 | same, with empty reads | generalise C01 to interrupted runs |
| C05 | same | false for announced length < 8: witness; `_partial` for streams whose headers announce ≥ 8 |
| C06 | `hello`, `parseHello` on bit lists | bit arithmetic lemma on `testBit` / sums, struct round trip |
| C07 | same | length computation; padding false for ≥ 2 bitmap words: witness, `_partial` for max < 32 |
| C08 | `channelRecvHello` | case analysis, max over a finite set |
| C09 | two `channelRecvHello`s | from C06+C08 when both maxima ≥ 4 (`_partial`), witness of disagreement otherwise |
| C10 | start/attach/send trace machine | induction over the trace |
| C11 | `hmsXid` over a clock list | induction |
| C12 | interleaving of the reads and writes of any number of threads | false: witness schedule, and a continuation with a repeated id from every state with two threads about to write; `_partial` for calls that do not overlap at the write |
| C13 | `autoEcho` handler + loop | induction over messages |
| C14 | `loop` with arbitrary handler | induction over messages |
| C15 | controller `send`/`handle` machine with wire log | induction over operations |
| C16 | same | invariant over operations |
| C17 | same + in-order switch model | simulation invariant relating queue of unanswered requests to `seq` |
| C18 | same | false in general (witness); `_partial` when a queue element is outstanding; exact by relating `seq` to the list of outstanding requests, segment by segment (`Proof/Outstanding`) |
| C19, C20 | `controllerHandle` | case analysis over arbitrary queue |
| C21 | controller `recv` | struct round trip, case analysis |
| C22–C27 | sync channel as a transition system (register, deliver, timeout, close, collect) | invariants over all interleavings; C24, C26 false in general with witnesses |
| C28–C31 | port monitor state | refinement to a finite map; C30 for 1.4 and C31 false with witnesses |
| C32, C33 | parent channel, monitors, jack-in | induction; C33 from C17 |
| C34 | `recv` with closed flag | case analysis / induction |
| C35 | rate limiter as step machine | witness schedules for the closure bug and size 0; `_partial` sequential statement; for all schedules: calls consist of parts of tasks no earlier than the thread's own |
| C36 | `Threadlet.get` | false after an exception (witness), `_partial` for success |
| C37 | `pack`/`unpackFrom` | induction over the format |
| C38–C45 | ofp4 builders/parsers | equational round trips from C37, induction over lists |
| C46 | ofp4 list parsers with fuel | false: witnesses where every fuel is exhausted; `_partial` for inputs whose element lengths are positive |
| C47 | oxm | table of field widths, induction over the list |
| C48 | options | case analysis, injectivity |
| C49 | packet out | case analysis |
| C50–C53 | agent | case analysis; finite map invariants; C51 false (witness) |
| C54 | parent channel with jack-in clients | reachability; witness for unsolicited messages |
| C55 | ofp4 queue and experimenter messages | as C44; false with properties, and for every experimenter message |
| C56 | ofp4 builders against a byte-by-byte transcription of the standard | case analysis per builder, induction over lists |
| C57 | oxm vendor fields | case analysis; `build_stratos` always raises |
| C58, C59 | ovs helpers | case analysis, induction over the message list |
| C60 | `_obj` of parsed tuples | reuse of C39–C45, one lemma per structure |
| C61, C62 | agent | case analysis; counting argument over histories |
| C63–C65 | accept loop, connection threads and `stop` as a transition system | inductive invariant over all interleavings; lexicographic measure for termination; witnesses |
| C66, C67 | receiving thread, message threads, rate limiter | permutation invariant, composed with C35; witnesses; exact order of handling without rate limit, number of calls with any rate limit |
| C68 | `send` on a stream composed with `recv` | length argument, composed with C01; witness |
| C69 | ofp4 parser | sum of sizes by induction over the loops; witnesses of overrun |
| C70–C74 | ofp5 builders/parsers | as C38–C45, induction over nested messages; false for many messages, with families of witnesses |
| C75 | ofp5 parsers, loops | as C46: everything that can stop a loop from advancing is listed and proved to be the only cause; each kind of cause has a family of witnesses |
| C76 | ofp5 builders against `Spec/Of14Layout` (structures of OpenFlow 1.4.0 byte by byte) | induction over nested messages; what is excluded is refuted theorem by theorem |
| C77 | `_enum_base` against declared names (`Spec/Enum`: words of a text, groups of a dictionary) | induction over text and entries; `bitnames` false where flags are declared as numbers |
| C78 | constants against `Spec/Consts`, transcribed from `openflow.h` of the standard | general theorem on enumerations (C77) and a search tree with a proved lookup, evaluated by the kernel; each wrong or missing constant is named |
| C79 | ofp5/oxm.py | as C47, with field numbers through C77 |
| C80 | `ofptuple` against a grammar of frames (`Spec/OfpTuple`) | exact result for every frame of the grammar; equals the standard's fields for plain frames, refuted for the others |
| C81 | `helper_path`, file operations of `ParentChannel.recv` and `close` | names are injective; invariant over messages; a loose invariant over all interleavings of small steps; refuted if the datapath changes.  Assumed: `stop()` of a helper server returns, the directory has no file of the channel at the start |
| C82 | `DgramServer` | every run with a round in it ends with TypeError; the claim refuted |
| C83 | `LoggingChannel` on `Chan` | decoding lines gives the messages (induction over calls); lock invariant over all interleavings of closes; refuted without the lock and for sends that fail (exact: iff no send fails) |
| C84 | both `serve_forever` | exact condition (iff) under which it holds; refuted otherwise |
| C85 | `use_gevent`, `_sched_proxy` | refuted: local variable |
| C86 | `_obj` on what the parser of ofp5 returns | induction over calls (nested messages); refuted for seven kinds of messages |
| C87 | graphs of the two CORD scripts | both graphs evaluated to functions of the packet, compared; refuted for port 3 |
| C88 | graph of the .bess script against the flow entries of its comments | refinement, table by table; entries shown to be unambiguous; refuted for six kinds of frames |
| C89 | both scripts and graphs | evaluation of the scripts, invariant of the walk; refuted if BESS checks the size of byte strings |
| C90 | tables of the switch and threads of the switching hub | invariant over all interleavings; refuted for ports added later |
| C91 | same | invariant (entry or thread at work); refuted for hosts that return, for overtaking threads and after expiry |
| C92 | whole connection of the example switch, from reads to messages sent | composition of C01, C08, C13 with exact bytes of the answers; refuted for five kinds of requests |
| C93 | same, and the agent | byte-level greetings through negotiation and parser; refuted for peers with a higher version |
| C94 | ofp5 parser | sum of sizes by induction over the loops; witnesses of overrun |
| C95 | ControllerChannel.send, handle_proxy | invariant over the runs of the controller and a switch that works in order; witness of a callback that stays |
| C96 | bound_socket, stream_socket, dgram_socket | equivalence with a specification of the first usable entry; witnesses |
| C97 | attach, start, close, send, recv of OpenflowChannel | invariant over all calls; equivalence of iterations; witnesses |
| C98 | SyncChannel._sync_simple, echo, feature, get_config, barrier | composition with the invariant of send_sync (C22) |
| C99 | SyncChannel.recv | case analysis of every step under the invariant of all runs; witnesses |
| C100 | PortMonitorChannel.ports, close with concurrent readers | invariant over all runs of a transition system; witnesses |
| C101 | all of ofp4/parse.py, ofp5/parse.py, oxm.py: offsets | simulation, function by function, of the parse on the shifted buffer |
| C102 | all of ofp4/parse.py, ofp5/parse.py: ends of records | extension lemma for every parse function with the cursor's end as bound; witnesses |
| C103 | `ReadWrapper` objects with identity, `read_wrap` and `installed_wrapper`; programs of nested blocks; interleaved events (`Model/Wrap`) | induction over programs: objects of enclosing blocks keep `installed_wrapper`; induction over events of other objects; exact for several threads by induction on the block left last |
| C104 | `Bitmap.fromBitmap` with `hello`, `parseHello`, `Of13/Of14.buildHello`, `Of13/Of14.parse` | induction over the words and over the element loop; the bytes of a greeting computed once and compared |
| C105 | `StreamServer` (`Srv.step`) | invariant over all interleavings: buffer and messages come about by appending reads and cutting complete messages; prefix lemma over that derivation |
| C106 | `twink/sched_basic.py:17-54` | interleaving transition system; counting invariant (one token for the queue's item); serial schedules by a second invariant |
| C107 | class statements of `twink/base.py`, `twink/ovs.py`; Python 2.7's C3 linearisation and `super` | C3: invariant of class statements by induction over the program (orders of bases are sublists, no duplicates); chains of `super` by induction over the order |
| C108 | `handle_proxy` of AutoEchoChannel, ControllerChannel, ParallelChannel, OpenflowServerChannel along the order of C107 | reduction of an order to the classes with `handle_proxy` (16 arrangements), case analysis of `ctlHandle` |
| C109 | as C108 | induction over the order of the classes (`calls_of`); 16 arrangements for asynchronous messages |
| C110 | attribute lookup of `handle` along the order of C107 | first class of the order that defines it; C107_order |
| C111 | all of `Of13Build` | `Spec/Of13Fits` says what fits; equivalence structure by structure, then for every call (C111_exact); the layout gives the lengths |
| C112 | ofp5/build.py, all builders | `Fits`/`out` in `Spec/Of14Fits`, an equivalence for each structure, then for each call (`C112_exact`) |
| C113 | ofp4/parse.py, all of it | a grammar of rules with explicit offsets (`Spec/Of13Reads`), each parse function equivalent to its rule; loops by induction on the room left; UTF-8 specified by encoding of code points; divergence as an inductive predicate |
| C114 | ofp5/parse.py, all that `parse` can reach | a grammar of rules with explicit offsets and ends (`Spec/Of14Reads`), each parse function equivalent to its rule; nested messages by strong induction on the room left; divergence as an inductive predicate (also C75_exact) |
| C115 | `init_pktinout_port`, `deinit_pktinout_port`, `PortManager`, call by call against a daemon that may fail | case analysis of the runs, induction on histories; refuted: a module that cannot be created leaves the workers stopped, and further calls about that device do not restart them; exact: stopped iff the function raises after the pause |
| C116 | the same functions, with the ports, modules, links and sockets of the daemon | computation on an arbitrary sound state; soundness as an invariant of all calls; refuted for one failed connect and for the name 'vxlan'; a failure is shown to be permanent by an invariant |
| C117 | the main program up to the first connection, `init_phy_port`, the port manager, `switch_proc` | invariant (shape of modules, links and sockets; one entry per name; each entry with a socket is wired) over all histories, composed with C61 for packet-out messages; refuted for 'vxlan' and for failures during a deletion |
| C118 | `Model/Wired.lean` (controller of `Model/Sync.lean`, switch of `Model/Session.lean`, two queues) | invariant of the joint system: what was asked is handled or on the way, what was said is received or on the way; every handled message has at most one answer; a measure `load` falls with every step of the network; both switches are shown to be of the stated kind |
| C119 | `Model/Wired.lean` | invariant: no tracker of the controller ever holds a barrier reply, so `barrier` cannot succeed; for the positive part the invariant of `multi` from C26 on the joint system |
| C120 | `rule2ofp` (twink/ovs.py L11-45) with `StreamServer.start`, `run`, `stop` (twink/base.py) and the `ovs-ofctl` processes | transition system of five parties; invariants by induction over the schedule; the two races characterised exactly (`StoppedFirst`, `Refused`) by induction from the right; existence of a good schedule by induction over the rules |
| C121 | `add_port`, `del_port`, the PORT_DESC branch of `switch_proc` (bess_of_agent.py) as two threads; iteration over a dictionary of CPython 2.7 | transition system over the slot table of the dictionary; invariant with the ports there have ever been and the order of the messages about a port; exact conditions by induction from the right; link to the sequential model `Agent` |
| C122 | `of_agent_start`, the loop of the connection, the calls of the port manager and the main program (bess_of_agent.py) | transition system over `Session` and `Agent`; the set of messages that are survived from `C50_exact`; the exact condition by induction from the right; absorbing states by invariants |

This file is updated as the model grows; deviations found in the code are listed below.

## How false properties are treated

A property that the code does not have keeps its full statement in `properties.jsonl`.  Its negation is proved (`…_refuted…`), where possible
for a whole family of inputs instead of a single witness, and the largest part we can prove carries the suffix `_partial` (or is a theorem with
the exact extra hypothesis).  `MANIFEST.json` says "partial" for all of these.

Where the line between the two parts can be drawn exactly, a theorem `…_exact` (an equivalence) draws it: C05, C07, C09, C18, C19, C32, C36, C40–C43,
C26 (`C26_exact`), C28 (`C28_exact`), C46, C50, C53 (`C53_exact`, `C53_received_exact`), C54, C58, C61–C65, C68, C71, C72, C75, C80, C84, C87, C93, C95, C97, C107 (`C107_accepted`), C108–C115, C120 (`C120_raises_exact`, `C120_server_exact`), C121 (`C121_exact`, `C121_dies_exact`), C122.  C63–C65 speak about whole histories (`Once`: some time
in the history this happened).  Of these, C18, C19 and C54 are about
all histories of a channel with an arbitrary switch: the requests outstanding (a list kept beside the channel, which the code does not have) decide where a
message goes.

## Deviations found in the code

Framing, hello, xid (`twink/base.py`)

* A header that announces fewer than 8 bytes: `recv` returns a fragment; with length 0 it returns empty messages forever (C05).
* Hello messages with an even number of bitmap words are not padded to 8 bytes, because the padding is computed without the element header (C07).
* Negotiation: one end may fail while the other carries on, if the highest versions are below 4 and there is a gap (C09).
* `hms_xid` reads and writes its state without a lock: two threads may get the same id (C12).

Controller, sync, ports, parent (`twink/base.py`)

* A message sent without callback on an idle channel leaves no trace, so its reply goes to the callback sent later (C18).
* A timeout in the middle of a multipart reply returns the fragments so far as if complete (C24).
* After `close` a waiter may still return a buffered message (C25; `C25_exact` says exactly which value it returns).
* Records of sync requests leak if sending raises, if the barrier of `multi` fails, or if ids collide (C26).
* OpenFlow 1.4: a FEATURES_REPLY empties the port list (C28); port records are decoded with wrong size and positions (C30).
* `Event.set(port)` raises `TypeError`: a waiter for a port kills the receiving thread (C31).
* An exception when writing to a monitor, or a second hello, ends the parent's `recv` (C32).
* Without `handle_async`, unsolicited messages go to the jack-in client that has a request outstanding (C54).
* The rate limiter compares after the thread has been started, its closure binds late, and limit 0 never runs anything; with limit 1 any number of tasks can run at once (C35).
* `Threadlet.get` reports an exception only once (C36).
* A client that is gone before the hello is sent ends the server's accept loop (C63).
* A handler that raises leaves its channel open and in the server's set (C64, C65).
* `ParallelChannel` handles messages in any order (C67); with `async_rate` it may handle one twice and another never, and a message too short for a header ends the receiving thread with `struct.error` (C66).
* `Channel.send` ignores partial sends: bytes are lost and the receiver frames what was never sent (C68).

OpenFlow 1.3 codec (`twink/ofp4`)

* Set-field and experimenter actions that need padding come back with the padding; set-MPLS-TTL is parsed with a wrong format (C40, C41, C43).
* An experimenter band makes the parser loop forever (C42, C46); so does an action of length 0 in a packet-out (C46).
* PORT_MOD can never be parsed (C44).
* Port statistics, short description strings, aggregate requests and replies do not come back (C45).
* Queues with properties and experimenter messages do not come back (C55).
* The length of meter statistics is copied from the argument; the types of table feature properties differ from the standard (C56).
* OXM: IPV6_FLABEL and MPLS_LABEL are built with wrong widths (C47); `build_stratos` raises for all arguments, NXM_1 fields have the wrong width (C57).
* The length of fixed-size instructions is ignored; elements of buckets, group mods and packet-outs may overrun their container (C69; likewise in OpenFlow 1.4, C94).
  The length of a message that forwards a request is not compared with the request at all; the last property of an asynchronous configuration may run over its end (C94).
* Rebuilding: port names are padded by the builder but come back as Unicode; experimenter and aggregate replies are not rebuilt (C60).

Open vSwitch helpers (`twink/ovs.py`)

* The value of a flag option is ignored, missing arguments collapse (C48).
* OpenFlow 1.4 channels raise `IndexError` before `ovs-ofctl` is run (C58).

BESS agent (`bess_of_agent.py`)

* 1024 ports or 1170 flows make the reply too long: `struct.error` and no answer (C50).
* A failed `add_port` leaves a port behind that cannot be packed: no port description is answered any more (C50, C53).
* A failed `del_port` that is tried again announces the deletion twice, and the second announcement makes the library's `_update_port` raise AssertionError in the controller (`C53_retry_refuted`); `C53_exact` and `C53_received_exact` say for any history when the controller's view is right and when it survives.
* The flow table is keyed by cookie and the command is ignored: deletes add a flow, same-match adds do not replace, a known cookie raises
  `TypeError` and the filter of a statistics request is ignored (C51).
* Only the first action of a packet-out is looked at; no action, a reserved port or an unknown port raise (C61).
* Port numbers are never used again and run into the reserved ones (C62).
* When a module cannot be created, `add_port` raises with the workers paused; trying again or deleting the device does not resume them (C115).
* When the socket cannot be connected, the auxiliary port of the device stays for ever and the device never gets a socket again; for 'vxlan' nothing
  is removed at all (C116).
* What is sent to the port 'vxlan' leaves nowhere; after a deletion that fails half way the port stays listed and leads nowhere (C117).

OpenFlow 1.4 codec (`twink/ofp5`)

* Set-field and experimenter actions that need padding come back with it; parsing set-MPLS-TTL raises `NameError` (C71).
* Experimenter errors come back as ordinary errors; role messages, and what `ofp_role_status` builds (with type 24 or 25 instead of 30), come back as bytes;
  TABLE_STATUS and BUNDLE_CONTROL with properties cannot be parsed, BUNDLE_ADD with properties raises `TypeError`; PORT_MOD is read from the
  first byte of the message; METER_MOD loses its bands unless the header is given with its length; PORT_STATUS cannot be built, nor TABLE_MOD with tuples (C72).
* Some properties cannot be built (missing names), eviction and asynchronous-configuration properties come back changed, ports and their statistics
  lose the place in the message (C73).
* Requests for meters raise `NameError` when parsed; aggregate requests, most requests with tuples of the new types and replies of the new types cannot be built;
  replies with table, port or queue statistics and port descriptions do not come back; lengths in flow updates are 8 too large;
  table features with actions or next tables do not come back (C74).
* The parser loops forever on PORT_MOD messages for ports whose number has an upper half other than 0, 1, 0xffff (built by the library itself),
  on ROLE_STATUS with a role whose upper half is 0xffff, on zero-length set-field and experimenter actions, on experimenter bands, on zero-length
  experimenter properties, and on messages in which such a message is nested (C75).
* TABLE_STATUS has a two-byte reason, so that the table starts a byte late; properties of ports are counted but left out; flow updates claim 8 bytes too many;
  experimenter properties of port statistics and bundled messages followed by properties lack padding; bare headers of queue properties are 8 bytes long;
  instructions with raw actions of odd size claim padding that is not there; types of table feature properties are numbered wrongly (C76).
  The importance of flows, new in OpenFlow 1.4, is missing from flow statistics: the bytes are zero.

Enumerations and constants (`__init__.py`, `oxm.py` of both packages)

* The flags of bundles (OFPBF) are declared as numbers, so `bitnames` gives no names for them (C77).
* OFPET lacks QUEUE_OP_FAILED and, in 1.4, BAD_PROPERTY, so that later error types are off by one or two; SWITCH_CONFIG_FAILED is spelt FAILWD;
  OFPTFPT lacks the unused numbers, so that WILDCARDS and later are off; OFPBCT lacks COMMIT_REQUEST and COMMIT_REPLY, so that the package's
  request to discard a bundle is the standard's request to commit it; OFPACPT_EXPERIMENTER_* and three of OFPOSF_* are off;
  OFPPF_PAUSE_ASYM, OFPFF_NO_BYT_COUNTS, OFPPMFC_* and (1.4) OFPR_TABLE_MISS are missing (C78).
* PBB_UCA is 40 in `ofp5/oxm.py`, 41 in the standard; IPV6_FLABEL and MPLS_LABEL are one byte wide as in 1.3; every other class than
  OPENFLOW_BASIC makes the whole list of fields unreadable, unlike in `ofp4` (C79).
* `ofptuple` compares the OUI of a SNAP header with the text "0x000x000x00", so that the type of an 802.3 frame is always its length; takes options of an
  IPv4 header for ports; gives ports for fragments; gives all eight bits of the type of service and all sixteen of an operation of ARP (C80).
* A switch that announces another datapath later leaves the socket files of the first behind, and `helper_path` names a file that does not exist (C81).
* `DgramServer.run` calls `sock.recv()` without a size: TypeError in the first round; the socket is never closed; `locked_loop` uses `StringIO`, which
  is not imported (C82).
* `LoggingChannel.send` logs before it sends, so that messages that could not be sent are logged as well; without `ParallelChannel` two threads may
  both log that a channel closes (C83).
* `serve_forever` starts servers outside its `try`: one that fails leaves the others running; with threads, so does a `stop` that raises (C84).
* `use_gevent` assigns a local variable and has no effect (C85).
* Parsed OpenFlow 1.4 messages cannot always be built again (C86): REQUESTFORWARD comes back as a tuple of the class `ofp_requestforward_`, for which there is no
  builder; table features have the class name `ofp_table_feature_prop_header`; TABLE_MOD adds the list of properties to a byte string; requests for queue
  descriptions and flow monitors, aggregate and experimenter replies are not accepted; METER_MOD loses its bands; PORT_MOD is rebuilt for another port.

* The CORD pipeline (C87–C89): the Python script adds the rule of table 3 to `t0_inport`, so that packets of port 3 are taken for packets of port 2 or dropped; it
  sets no default gate for `t0_inport`.  In both scripts the fields HWSRC and HWDST have each other's offset, so that `set_field:…->eth_dst` overwrites the
  source; the address is given as text (`aton_mac` is not applied); the tag bit 0x1000 of `vlan_tci` is looked for in the frame, where it is the DEI bit; rules for
  IPv4 addresses and ports do not ask for IPv4; `t0_start` has no default gate; the entry for `in_port=4` of table 1 was given port 3 (no effect, both drop).

* The switching hub of the examples (C90, C91): a host that moves and comes back stays unreachable, since table 0 still knows it at its first port and nothing
  corrects table 1; the same if the threads of two of its frames overtake each other; an entry of table 1 that expires is not set again while that of table 0 is in
  use; ports that come up after HELLO are not in the group.

* Handlers that give every message to the parser of 1.3 (the example switch and the agent, C93) end with AssertionError when the controller also speaks 1.4 or higher:
  its hello has the higher version in the header.  The example switch leaves barrier, role, queue and asynchronous-mask requests and all multipart requests except flows
  unanswered (C92).

* The record of the last callback stays after its request has been answered, until the reply to a later barrier request arrives: errors and
  other unsolicited messages go to that callback meanwhile (C95).

* `bound_socket` takes the first entry of `getaddrinfo` that has the type wanted or type 0; in the latter case it asks for a socket of type 0.
  It does not try further addresses, and does not look at a socket it is given (C96).

* A channel that is attached to a second connection does not greet, keeps the version of the first, and takes the bytes of the second for the rest of a message that the first
  broke off (C97).

* An error message in answer to a simple synchronous request raises NameError, as `OpenflowError` is not defined (C98).

* A caller that times out while its reply is being looked up ends the receiving thread with KeyError; so does (struct.error) a reply with the type of multipart replies
  that is shorter than 12 bytes (C99).

* Reading `ports` returns an empty or incomplete list without a sign if the wait times out or the channel is closed; a port that appears between two parts
  of a PORT_DESC reply is lost for good, and its removal ends the receiving thread with AssertionError; so are ports of the first part if a second reader gets the same id (C100).

* C102: bytes of a following message become part of flow removed, packet out, group modification messages and requests for flow statistics if a length inside them is too great (1.3), of packet out messages and table features (1.4); a message that is too short for its type is completed with them. Framed messages (C01) are parsed alone, so this needs a caller that parses a buffer of several messages, for which `offset` is there.

* C103: `__exit__` restores what was installed when the block began, kept in the object: with overlapping blocks of two threads the wrapper of the first stays for ever (`C103_threads_refuted`), and an object used inside its own block stays too (`C103_again_refuted`). Inside a block the wrapper replaces the old one, it is not added to it: `default_wrapper`'s handling of EAGAIN, ECONNRESET and EINTR is off.

* C104: the converse of (2) is false, as an example beside the theorem shows: `base.parse_hello` looks only at the first element, so it accepts messages that `ofp4.parse` refuses.

* C106: two threads that call `get()` on the same task disturb each other: the queue holds one item, `self.result` is tested, fetched and cleared without a lock. One of two overlapping calls returns None, raises AttributeError or waits for ever; and after SystemExit in the function every call waits for ever.

* C107: `OpenflowChannel.attach` calls `super(OpenflowBaseChannel, self).attach`, skipping the classes between; a user's class derived from `OpenflowBaseChannel` that overrides `attach` is passed over if it is listed after a class derived from `OpenflowChannel`. Classes not derived from `Channel` that stand behind it are not reached, as the methods of `Channel` do not call `super`. Barrier requests which `ControllerChannel` adds are logged only if it comes before `LoggingChannel` (C107_inserted). A second `close()` ends at `LoggingChannel` (C107_reclose).

* C108: with `ControllerChannel` before `AutoEchoChannel`, as in `twink/__main__.py:18` and `ovs.py:175-184`, an ECHO_REQUEST that arrives while a request with a callback is outstanding is given to the callback and never answered, so that the switch may give up the connection.

* C109: with `ParallelChannel` (or `SyncChannel`) before `ControllerChannel` the asynchronous messages are handed to `handle_async` in the receiving thread, since `ControllerChannel.handle_proxy` replaces the wrapped handler: a synchronous request in `handle_async` then blocks the receiving thread, an exception ends the loop.

* C110: the `handle` of a plain mixin (not derived from `OpenflowServerChannel`) that is listed after a channel class is not called.

* C111: what fits the standard but cannot be built: requests for aggregate statistics, `None` for all queues, bodies and table feature properties of experimenters (C111_unbuildable_refuted). What does not fit but is built, cut or filled up: hardware addresses of port modifications, the texts of a description (C111_cut_refuted).

* C112: PORT_STATUS, experimenter properties of ports, queues, asynchronous configurations and table features, aggregate requests, `None` for a queue, and tuples for the properties of TABLE_MOD cannot be built at all (`C112_unbuildable_refuted`); METER_MOD takes any bytes as header (`C112_meter_header_refuted`); ROLE_STATUS is built only under the types of role request and reply (`C112_role_status_refuted`).

* C113: the rules say what the code reads. Against the standard: PORT_MOD, EXPERIMENTER, features of tables, queues with properties and actions that set the MPLS time to live are never read, port statistics are read with three bytes of padding instead of four (`_refuted`). Text: the model's decoder accepts exactly the encodings of code points up to 0x10ffff including surrogates, as Python 2 does (`C113_names`).

* C114: the rules say what the code reads. Against the standard: TABLE_STATUS, ROLE_STATUS longer than a header, ports without properties, requests about meters, statistics and descriptions of tables, statistics of ports and of queues, bundle messages with properties, features that list actions and the action that sets the MPLS time to live are never read; a port is returned as its first property, and the port number of a PORT_MOD is made of the message's header (`_refuted`).

* C118: the transport is two queues of whole messages, as C01 to C04 justify; both sides start after the handshake with version 1.3. The end of the connection as seen by the controller and failing writes of the switch are not modelled.
* C119: neither switch of the project answers barrier requests, so `multi` (and `barrier`) of a controller connected to one of them never returns: it waits, and raises ChannelClose after the timeout (10 s by default); the records of its messages stay in `syncs`, with their replies.
* C118: an id is free for reuse as soon as its call has timed out, so the late reply goes to the next call with that id; `hms_xid` gives 0 at midnight, the id of the port status messages of the software switch.

* C120: `spawn(serv.start)` returns before the server is started.  If the thread is late, the first `ovs-ofctl` is refused and `rule2ofp` raises `CalledProcessError` though the rules are good (`C120_raises_exact`).  If it is so late that `stop()` comes first, `accepting` is set after it was cleared and the server listens for ever (`C120_server_exact`, `C120_immortal_refuted`); this needs an error or an empty list of rules (`C120_returned_partial`).

* C121: `del_port` announces a deletion before it removes the port, and `switch_proc` makes a description before it sends it, so a controller may believe for ever in a port that is gone (`C121_stale_refuted`) or never hear of a new one (`C121_lost_refuted`); a port added while the ports are listed raises RuntimeError in the thread of the connection, which ends (`C121_dies_refuted`).  The comments `TODO: Acquire lock` (L126, L185) mark the place.

* C122: the agent connects once.  A message whose handling raises ends the thread of the connection and nothing starts it again (`C122_exact`, `C122_again_refuted`); the same flow mod sent twice is enough (`C122_twice_refuted`).  When the controller is gone `add_port` raises after it has put the port into the table, so that each retry adds it once more (`C122_retry_refuted`), and `del_port` raises before it does anything: no port can be deleted any more (`C122_broken_refuted`).

## Mutation testing

`tools/mutate.py` applies single edits to a scratch copy of the model and rebuilds; `seeded/LOG.jsonl` has one line per attempt.  Edits that survived
led to stronger theorems (field `tightened`).

The project's own checks (`twink/ofp5/__main__.py`, scenarios of `test/test_twink.py`) are replayed in the model in `Verif/Props/SelfTests.lean`. They are
tests of the model's fidelity and carry no property.
