# Formal model of vectorgrp/sil-kit in Lean 4

## 1. Layout

* `properties.jsonl` – the list of semantic properties (C01, C02, …).
* `lean/Verif/Model/*.lean` – the model: definitions only, each with a comment citing file and lines in `/repo`.
* `lean/Verif/Spec/*.lean` – small independent specifications (what the property says, without the model's helpers).
* `lean/Verif/Lemmas/*.lean` – helper lemmas and invariants.
* `lean/Verif/Props/*.lean` – the property theorems, one file per group, each with a non-vacuity `example`.
* `MANIFEST.json` – property → theorem names and status.
* `AXIOMS.md` – generated list of the axioms of each theorem.
* `seeded/LOG.jsonl` – log of wrong-program experiments.

All paths below are relative to `/repo/SilKit/source` unless they start with `include/` (then `/repo/SilKit`).

## 2. Modelling conventions

* One participant's middleware runs its callbacks on one I/O thread (`VAsioConnection::StartIoWorker`, a single
  `_ioContext->Run()` loop) and user calls that send are posted to it (`ExecuteOnIoThread`, `ExecuteDeferred`).
  A participant is therefore modelled as a state machine whose steps are I/O-thread callbacks; arbitrary schedules
  are arbitrary sequences of steps.
* C++ exceptions are modelled as an explicit outcome (`Except`/error constructor) together with the state the code
  leaves behind. Undefined behaviour (out-of-bounds access, dereferencing `end()`, signed overflow) is a separate
  outcome constructor `ub`, never a default value.
* Integers are `Nat`/`Int` unless the property is about representation (wire format, bit serializer), in which case
  the width is explicit.
* `std::unordered_*` iteration order is unspecified: where it matters, the model takes the order as an argument or
  uses a list whose order is arbitrary.
* Logging, metrics and tracing sinks are not modelled (no effect on the modelled state) unless stated.

## 3. Plan per property

| id | model | how it is proved |
|----|-------|------------------|
| C01 | `RingBuffer` as storage list + positions, all six methods | refinement to a byte queue (abstraction = `size` bytes from `rPos` modulo capacity), induction over operations |
| C02 | `VAsioPeer` receive path on top of the ring buffer | loop invariant: delivered ++ undelivered bytes = received stream; equality with a chunk-free parser |
| C03 | same | same invariant with illegal prefix |
| C04 | `VAsioPeer` send queue and partial writes | invariant: written ++ pending = sent |
| C05 | aggregation buffer of `VAsioPeer` | invariant on the flush class; negative witness for the "other" class |
| C06 | `MessageBuffer` writers/readers and the serdes functions of the message types | combinator round-trip laws, one theorem per message type |
| C07 | same | reader never advances beyond the end; result is value or end-of-buffer |
| C08 | public `Serializer`/`Deserializer` | simulation relation between writer's and reader's alignment state, induction over the call sequence |
| C09 | `LabelMatching.cpp` | direct |
| C10 | `SpecificDiscoveryStore` | invariants of the lookup maps; soundness for all histories, completeness where it holds, negative witnesses where the code loses or duplicates notifications |
| C11 | `ServiceDiscovery` | induction over event histories |
| C12 | `TimeConfiguration` | induction over operations |
| C13 | N participants with FIFO channels, `SynchronizedPolicy` | global invariant |
| C14 | same; `Spec/TimeSyncChanging`: participants that join, pause, continue and leave at any time, discoveries in any order, announcements that arrive before their sender has been discovered | global invariant + minimal element argument; for changing participants: either the oldest participant that has not stepped, about which nobody can have missed anything, or the one with the smallest next time point |
| C15 | same with data messages | global invariant |
| C16 | `TimeConfiguration::GetMinimalAlignedDuration`, `AdvanceTimeStep` | direct |
| C17–C19 | `LifecycleStates`/`LifecycleManagement`/`LifecycleService` | state machine with explicit pending callbacks; invariants over all histories; negative witness for C18 |
| C20 | `SystemStateTracker` | induction over update histories |
| C21 | `SystemMonitor` on top of C20's model | direct |
| C22 | `RequestReplyService` + `ParticipantReplies` | invariant over histories |
| C23 | subscription handshake of `VAsioConnection` | invariant over histories |
| C24 | `VAsioRegistry` | invariant over histories |
| C25 | peer/name table of `VAsioConnection` | negative witness + partial |
| C26 | `ConnectKnownParticipants` | invariant over event histories |
| C27 | `Model/Links.lean`: `SilKitLink`, `VAsioTransmitter` (history), `RegisterSilKitMsgReceiver`, `TryAddRemoteSubscriber`, announcements, disconnects, any number of participants, all 39 kinds of messages; connections are FIFO channels | per link and pair of participants: arrived ++ in flight = history at acceptance ++ published since; per service: received = arrived since registration; every subscription is under way or accepted |
| C28, C29 | `Model/Bus.lean`: any kind of services on the links of C27; `Model/Can.lean`: `CanController` with the trivial and the detailed behaviour, handlers with masks | each service sees a run of its own and the links see a run of theirs; what a controller sends, takes from itself and takes from others by induction over such runs; delivery from C27's theorems; handlers by an invariant over single-controller runs |
| C30 | `Model/Ethernet.lean`: `EthController` with the trivial and the detailed behaviour, as services on links (`Model/Bus.lean`) | as C28 |
| C39 | `Model/Handling.lean`: one table of handlers with masks per kind of events, used by the controllers | invariant over single-controller runs: what handlers are told follows from the messages taken; calls = told events of the kind in the mask since registration |
| C31 | `Model/Lin.lean`, `Model/LinNet.lean`: `LinController` with the trivial and the detailed behaviour; `k` controllers on links with arbitrary delays | what each controller knows of the others follows from their calls once all messages are delivered; then the phases header, responses, receptions |
| C32 | as C31 | invariant of a single controller with arbitrary inputs: its mode, status and responses are those configured by calls |
| C33 | `Model/Flexray.lean`: `FlexrayController`, `Validation.cpp` | ranges: direct; buffers: invariant over single-controller runs |
| C34 | `Model/Rpc.lean`: `RpcClient`, `RpcServer`, `RpcServerInternal`; any number of clients and servers, discovery step by step, FIFO channels | what a client does is a function of what happens to it; a call is under way, held by the server, or answered, for each server exactly once; the results are the first n responses |
| C35 | `WatchDog`: start, reset, the two steps of a poll (load of the start time, read of the clock), any interleaving | invariants over histories: last verdict vs. last look of a step, starts vs. looks, spans vs. looks |
| C36 | `SynchronizedHandlers` | induction; re-entrancy: UB outcome |
| C37 | `Uri::Parse`, `MakeSilKit`, `MakeTcp`, the validation of names, on character lists, with the stream that reads the port | induction over strings; exact grammar of what is accepted |
| C40 | `ConnectPeer`: the list of addresses (`UpdateUris`) and `TryNextUri` with the callbacks of the connector, as a machine with a stack of calls | invariant over event histories; measure for termination |
| C41 | `TransformAcceptorUris` with its set and multimap; `make_address` is a parameter | membership through both loops against a rule; sortedness of the insertions |
| C42 | the `HandlerData` objects of the C++ API, their addresses as contexts of the C interface, and the containers of C36 behind it; setters with one slot | simulation of one container per kind (C36) by addresses, invariant over histories of half calls; counterexamples |
| C43 | packing and unpacking of the values of calls and events between the C++ API, the C structures and the services; catch clauses and `ThrowOnError`; structure identifiers; the vector with pointers in LIN `Init` | round trips per member, an invariant of the vector's buffer, arithmetic of the identifiers; counterexamples |
| C44 | the bytes written by `PcapSink` to a file and a pipe; the reader with its stream position and `good` flag | induction over the traced frames: reading after the header consumes exactly one packet; a cut file is a prefix of the packets; deviations (exception for empty frames, unlocked lock, version check, magic number) by witnesses or for all frames |
| C45 | the replay scheduler and the replay code of the Ethernet, CAN, publisher and subscriber controllers over histories of creations, steps, sends and receptions | invariant of a task (what is left of the channel is what is not due) by induction over the history; for sorted recordings the schedule of each step |
| C46 | `traced`: what an Ethernet controller traces, composed with C44 and C45 | grouping the sorted sends by the steps in which they happen; counterexamples for steps that are not multiples of 1 µs, for a later start, and for received frames |
| C38 | same model as C27 | invariant: everything under way, kept or arrived was published on the same link; names on the wire decide what can be confused |
| C47 | breadth-first reading of includes over an arbitrary file system, search paths, 127 levels | invariant over the levels: the files that are read are those within a number of includes (`Depth`); termination with circles; deviations for the directory of the root, deep chains, other names and the root itself |
| C48 | all merge functions and caches over what is written in the files | induction over the list of files for each section: accepted iff `Mergeable`, the result is `Merged`; equality of elements for each kind; deviations from the documented rules by counterexamples |
| C49 | a network of participants, the registry, and a channel up and down for each participant; announcements, replies, data and disconnect notifications | invariant over histories: for each ordered pair, the phases idle, coming, there and gone say what is on its way and what has been observed; separate invariants for the peers of a participant and for who is known |
| C50 | the coupling thread, its variables and the wall clock around the participant of C12: any delay, wake-up, check and deferred request | invariant over histories relating the sync point, the time the thread is due and the first step; a potential (virtual time behind the sync point, minus what is still pending) that never decreases; induction over periods |
| C51 | The network simulator with its networks, routers, descriptors and discovery handler; the switch of controllers between trivial and detailed simulation; the status values of the CAN and Ethernet event producers | An invariant over all histories relates the tables of the router to the list of offered controllers that is computed from the observations alone; the observations after any history are then given by this list. Errors are traced back to their causes by a second invariant |
| C52 | Lifecycle and system monitor of every participant, composed over a network with ordered connections: joining with the history of length one, starting, the workflow configuration, lost connections (`Model/Startup.lean`) | Safety: invariant that every cached or travelling status was reported and every system state is justified by reports, by induction over histories. Completion: invariant that relates, for each required participant, its state, what it has seen of every other one and what is on the way; in a quiet state the slowest participant can only be running |
| C53 | The writer and the reader function by function over the tree of the YAML library, with every member of the configuration (`Model/ConfigText.lean`) | Each function of the writer emits a known list of fields with different keys; reading looks up each field; by structure of the configuration, with induction over the lists. `kept` and `Lossless` (`Spec/ConfigText.lean`) say which settings survive; the exact set of surviving configurations is characterised |
| C54 | `ValidateWithSchema` as a traversal of the document tree of C53 that yields the list of messages; the table of paths as it is in the code | Acceptance characterised by a specification of reachable nodes (`At`) and texts of paths, by mutual induction over documents; for every class, its reader is shown to look only at keys whose paths are in the table (`strip_X`) and its writer to produce only such keys (`good_X`), for any place of the class; messages traced to elements and back |
| C55 | The flags of AsioGenericRawByteStream, the operations of the socket that are going on, the bytes on their way, the calls posted to the I/O context and the call of the listener that the I/O thread is about to make after it released the mutex | invariant over all interleavings that relates the flags, the open operations, the number of posted ends and the observed log; draining of the I/O thread by one explicit round of steps |
| C56 | The discovery of every participant (model of C10), which creates internal subscribers, on top of the message links of all participants (model of C27 and C38) | invariant that relates the internal subscribers to the registrations at the links and the publishers to the senders; then the theorems about links and discovery are composed |
| C57 | the logger (sinks in arbitrary order, filters, flush levels, spdlog's own level test), structured, unstructured and user messages, remote loggers, the queue of the I/O thread, links between participants, receivers with self delivery | the calls of a history determine, call by call, the events of every sink; delivered + in flight + queued = published, by induction over histories; deviations by computed witnesses |
| C58 | the texts of JSON lines character by character, `EscapeString`; specification: a JSON reader for strings and objects | round trip through the reader; exact characterisation of names and texts for which it holds; uniqueness of the reading |
| C59 | creation of the eight kinds of user services as one function with the tests, merges and effects in the order of the code; the sanitizing of name and registry; the flag of services that exist once, with interleaved threads | precedence as a relation between the list of entries and the value (first entry with the name); success characterised exactly; invariant over histories for identifiers, names, networks and announcements; four deviations by witnesses or for all states |
| C60 | the manager with metrics, time stamps and submissions, once with whole calls and once in the steps of the threads; the processor with its cache; the network of participants with remote sinks and collectors | the history determines value and time of each metric (`tracked`); invariants relate the manager and the reports to it; delivered + in flight = submitted, by induction over histories; losses by witnesses that hold for every continuation |
| C61 | the texts of values and lines | a grammar of JSON as an inductive relation (RFC 8259 without whitespace), shown to be unambiguous by induction; the lines satisfy it |
| C62 | the listener with one state tracker per simulation, the queue, the worker with its bulk updates, and the mapping of a bulk update to a request; every split of the queue into batches, every answer of the dashboard | a monoid observation of updates and of events: what has been sent, followed by what is accumulated, equals what the events assigned to an id tell; instances for system states, states, services, stops and names; an invariant of ids (created before used, retired after the end); the listener by an invariant that relates the trackers to the connected participants |
| C63 | the parser of command lines as a function of the declarations and the arguments, and the declarations of the three utilities | the arguments are the text of a sequence of items (a separate specification); both directions by induction, over the items and over the length of the command line |
| C64 | the ports and socket files of a machine; starts of registries with all refusals, regular and sudden ends; the candidates of a participant (reusing the models of URIs and of connecting to a peer) | invariant over histories: acceptors do not conflict, and every domain socket has the name of the URI at whose host and port its registry listens; texts of URIs are compared character by character |
| C65 | two threads as a transition system: the steps of `CreateSystemMonitor` and of the two setters on the user's thread, announcements and ends of connections with their steps on the I/O thread; the system controller as a function of the calls of its handlers | calm schedules: simulation of the connections by the monitor's maps, by induction over the events; all schedules: invariant that every name stems from an announcement; controller: invariant over the calls, the sorted sets are compared by their members |
| C66 | the decision as a function of the successive looks at the system state; the waits as a function of the time at which the final state is reached; the signal monitor as a transition system of signals, worker and destructor | case analysis over states, arithmetic over times; invariant over histories of signals; texts of levels character by character |
| C67 | the time provider with all its implementations so far, the mutex, and the thread of each timer as a transition system in which a blocked thread is an event that is not enabled | an invariant between the state and a view of the history; calls traced back to ticks; explicit continuations for progress, a stuck set for the deadlock |
| C68 | Transition system of the joining participant, its peer and the registry, with the queues between them, the timer and the attempts | Invariants over all schedules (what is under way in each stage), a decreasing measure for termination, counting of announcements; deviations by concrete schedules and an invariant for the state that is never left |
| C69 | The identifier computed from a name (64-bit arithmetic), descriptors with their comparison and text, the receivers of a link under all histories, the nodes of a LIN controller, names of log files | Arithmetic: injectivity on short names of a 33-character window, surjectivity on 13 printable characters by greedy representation in base 33; invariant over histories; collisions for all names, not only for witnesses |
| C70 | `main` of the registry as the list of its indivisible actions (every failure decided by the environment), any number of processes, signals, kills, participants and users; the settings | Every action is checked against the process's own view of its files (segments of `main` composed), the view is proved exact for all interleavings of processes with different temporary and status files; settings by cases |
| C71 | The process-wide table of futures, services by address and generation, threads with the steps inside the two calls, the C++ API's waiting thread; undefined behaviour of `std::future` as an outcome | Invariant over all careful histories (an entry belongs to the live service at its address, one call per address); results, reasons of errors, progress; counterexamples for careless ones |
| C72 | The bodies of all 146 functions of the C interface as lists of statements (checks, uses of pointers, the call, results), run on any arguments; a separate table of signatures written from the headers | Checks of the bodies (decided once for the finite table) that are sound for all arguments and all outcomes by induction over the statements; case analysis of everything a call can end with |
| C73 | The router, the packing of all messages into C structures with their storage, the unpacking by the header-only API; the packing of events, the dispatch on the identifiers in the C functions, the event producers with their members; the calls that register networks at three levels | Round trips for all field values; induction over arrays with a pointer invariant; induction over histories with the members as a function of the events so far; exact characterisation of the messages that arrive |
| C74 | One link in any number of participants: calls posted to the I/O thread, messages to all and to one participant, subscriptions with the repeated message, disconnections, FIFO channels. | Invariant for a pair of participants: what has arrived and what is on the way is the repeated message and what was meant for the participant since its subscription; the queue of calls refines the list of calls. The repetition of messages to others and the silent refusal are proved as negations. |
| C75 | The search for files, the verification of descriptors, the creation of the object and the caches, over an arbitrary operating system. | `FindLibrary` is characterised as a filter of the documented list of files, the loop as the first accepted element; caches by induction over the requests. Hidden libraries, null pointers, open handles and failing directories are proved as negations. |
| C76 | `ReplayMessage` and the calls that are ignored during a replay, on top of the model of the LIN controller. | Refinement: a history with replayed frames equals the history with `SendFrame` calls, by induction with an invariant of masters. Received data, frames after sleep, the direction and invalid identifiers are proved as negations. |
| C77 | The loop over the channels with both ways of matching, the split of names and the outcomes of configuring a controller, over arbitrary files. | The loop is a filter of the channels (induction); the split is inverted for all texts. Odd channels, slashes in names, types and unknown sources are proved as negations. |
| C78 | The LIN network of C31, with dynamic controllers. | An invariant over all histories (who has offered which response, in controllers and messages) bounds the number of responders the master counts; an invariant of the deliveries gives what each controller reports. The consequences of responses that are remembered, and the missing checks, are proved as negations. |
| C79 | Both ends of a handshake on the bytes of the messages: announcement, reply, failure, known participants, in the formats of versions 3.0 and 3.1, with the version each connection has. | The round trips of C15 give what each end decodes; that headers are found again gives which messages can be sent. The answers to versions that are not supported and to 3.0 are proved as negations, for all of them. |
| C80 | Two threads that set the option, discover and lose participants, and recompute the flag, interleaved wherever no lock is held. | Invariants over all schedules: what the state knows is what the calls say; if calls do not overlap, the flag is the computed one when nothing is going on. Two races as concrete schedules. |
| C81 | The calls of the user, interleaved with the discovery handler of the I/O thread, which is split between its check and the addition of the participant. | Two invariants over all schedules: once the first step has been requested, all synchronized participants are supported or the simulation has been aborted; what is remembered has been seen and connected. |

## 4. Trusted base

* Lean 4.33.0's kernel and elaborator of the statements. Allowed axioms: `propext`, `Classical.choice`, `Quot.sound`.
  No own axioms, no `sorry`, no `native_decide`/`bv_decide`.
* The reading of the C++ code: each model definition cites what it models and what it simplifies.
* Not modelled: OS sockets and asio (assumed: a stream socket delivers the bytes written, in order, possibly split),
  memory allocation failure, C++ compiler, logging, thread scheduling below the granularity of I/O-thread callbacks,
  wall-clock time (except as input), YAML configuration parsing.

### 4.1 Axioms

`AXIOMS.md` lists, for every theorem named in `MANIFEST.json`, the axioms it depends on (generated by `tools/axioms.py` from `#print axioms`).
Only `propext`, `Classical.choice` and `Quot.sound` occur.

### 4.2 What is modelled, and what is not

Each file in `lean/Verif/Model` cites file and lines for every definition, and says in its head what it leaves out.

| part of the code | model | not modelled |
|---|---|---|
| `core/vasio/RingBuffer.cpp` | all | – |
| `core/vasio/VAsioPeer.cpp` | receive path, send queue, aggregation | socket errors other than a disconnect, metrics |
| `core/internal/MessageBuffer.hpp`, `*Serdes*.cpp` of all message types | all operators | allocation failure; big-endian hosts |
| `include/silkit/util/serdes/*` | integers, floats as bit patterns, strings, arrays, structs, optionals, unions | – |
| `util/LabelMatching.cpp`, `DataMessageDatatypeUtils.cpp`, `RpcDatatypeUtils.cpp` | all | – |
| `core/service/{ServiceDiscovery,SpecificDiscoveryStore}.cpp` | all operations | handlers that call back into the discovery |
| `services/pubsub/DataSubscriber.cpp` | connecting to publishers | user handlers, replay |
| `services/orchestration/{TimeConfiguration,TimeSyncService}.cpp` | synchronized policy, configuration, any number of participants with channels | unsynchronized policy, wall-clock coupling, 64-bit overflow of time |
| `services/orchestration/{LifecycleService,LifecycleManagement,LifecycleStates}.cpp` | all transitions | restarts, reasons, logging |
| `services/orchestration/{SystemStateTracker,SystemMonitor}.cpp` | all | fields of a status other than name and state |
| `core/requests/*` | replies barrier | other procedures of the service |
| `core/vasio/{VAsioConnection,SilKitLink,VAsioTransmitter,VAsioReceiver}` | subscriptions and their acknowledges, history, delivery, joining, table of names | messages to one target (except as input to controllers), tracing, time stamps |
| `core/vasio/VAsioRegistry.cpp` | admission, known participants, proxies | versions, metrics, dashboard |
| `core/vasio/TransformAcceptorUris.cpp` | all | `asio::ip::make_address` is a parameter; logging |
| `core/vasio/ConnectPeer.cpp` | all | name resolution is a parameter; the connectors and their timeouts are represented by how they end; `Shutdown` |
| `include/silkit/detail/impl/services/**` with `source/capi/Capi*.cpp` | the handlers: `Add…`, `Remove…`, `Set…`, the callbacks | calls that fail, destruction of the objects, data races on the maps themselves; the values passed: see `HourglassValues` |
| `include/silkit/detail/impl/services/**`, `ThrowOnError.hpp`, `capi/InterfaceIdentifiers.h` with `source/capi/Capi*.cpp`, `CapiImpl.hpp`, `TypeConversion.hpp` | the values of 26 events, 23 calls, 2 queries, exceptions, structure identifiers (`HourglassValues`) | calls without values, logger, creation of participants, network simulator |
| `core/vasio/ConnectKnownParticipants.cpp` | all, with both threads | the connection attempt itself is C40 |
| `util/SynchronizedHandlers.hpp` | add, remove, invoke, re-entrant | `swap`, exceptions |
| `services/can/*` | controller, trivial and detailed behaviour; replay see `tracing/` | bit rates, time stamps, tracing |
| `services/lin/*` | controller, trivial and detailed behaviour, networks of any size without network simulation | time stamps, replay, tracing; nodes with dynamic responses are in the model, but excluded from the theorems about requests |
| `services/flexray/*` | controller, validation | replay, tracing, warnings about payload lengths |
| `services/orchestration/WatchDog.cpp` | constructor checks, `Start`, `Reset`, the loop body of `Run`, with the load of the start time and the read of the clock as separate steps | the thread, the stop promise, the sleep between polls, overflow of clock arithmetic, a step handler that throws (then `Reset` is not called) |
| `util/Uri.cpp` | everything but `UrlEncode` and the QNX case; `stringstream >> uint16_t` as in the "C" locale | exception types and texts |
| `services/rpc/*` | client, server, internal servers, calls, timeouts, handlers | matching (see C25), serialization (see C12), logging; `RpcDiscoveryHandler` is the steps `meet`, `find` and `part` |
| `services/ethernet/*` | controller, trivial and detailed behaviour; replay and tracing see `tracing/` | time stamps, helpers for MAC addresses |
| `tracing/PcapSink.cpp`, `tracing/PcapReader.cpp`, `tracing/Pcap.hpp` | writing to a file and a pipe, reading, seeking | failing writes other than by a cut file, meta infos, big endian machines |
| `tracing/ReplayScheduler.cpp`, `tracing/IReplayDataController.hpp`, replay code of Ethernet, CAN, publishers, subscribers | scheduling with a synchronized virtual time, blocking, sending, delivering | replay without virtual time (thread with a real time), finding the channel in a file, LIN replay, message types of extensions |
| `config/ParticipantConfigurationFromXImpl.cpp`, `operator==` in `config/ParticipantConfiguration.cpp` | search paths, includes, caches, merging | YAML parsing and schema validation, Windows paths, normalization of paths by the file system, which of several errors is reported |
| `VAsioConnection.cpp`, `VAsioProxyPeer.cpp` (proxy) | `TryProxyConnect`, `HandleConnectedPeer`, `ReceiveProxyMessage` of registry and participant, `AddPeer`, `RemovePeerFromConnection`, `AssociateParticipantNameAndPeer`, `OnPeerShutdown`, `SendProxyPeerShutdownNotification`, the announcement and its reply; destroyed peers | the channels to and from the registry deliver in order (C01, C02); protocol versions and simulation names agree; two participants connect once (C24); names are not used again; the `unordered_set` is iterated in order of insertion |
| `TimeSyncService.cpp` (wall clock) | `StartWallClockCouplingThread` with its loop split where the other threads can interfere, the sync point in `IsTimeAdvancePossible`, the late flag in `CompleteSimulationStep`, the deferred requests | rounding and overflow of `duration * factor` (the factor is a fraction `num / den`), the end of the thread, the busy loop while paused; the wall clock is an integer that grows |
| `experimental/netsim/{NetworkSimulatorInternal,SimulatedNetworkInternal,SimulatedNetworkRouter}.cpp` | simulating networks, start, discovery and removal of networks and controllers, routing in both directions, two routers for one network | the contents of messages and their conversion, the start barrier and lifecycle of the simulator, threads, messages to participants that left |
| `experimental/netsim/eventproducers/{Can,Ethernet}EventProducer.cpp` | the stored controller state, error state, link state and bit rate | frames and acknowledgements (opaque messages); LIN and FlexRay producers keep no state |
| `services/*/…Controller.cpp`, `services/*/SimBehaviorDetailed.cpp` | choice of the simulated link, `AllowReception`, sending to the link | receive paths of the individual messages |
| `services/orchestration/{LifecycleService,SystemMonitor,SystemController}.cpp` (all participants together) | C52: the composition of the lifecycle and the system monitor of every participant, the status and workflow configuration messages between them, the history for late subscribers | the connections themselves (ordered and reliable until lost, C27); the answers a lifecycle waits for are events of their own (C22); `StartLifecycle` is called at most once per participant |
| `config/YamlWriter.{hpp,cpp}`, `config/YamlReader.{hpp,cpp}`, `config/YamlParser.hpp` | C53: all functions for participant and registry configurations, with required and optional keys, deprecated keys, comparisons with defaults, texts of enumerations and range checks | the YAML library: emitting a tree and parsing the text gives the same tree (assumed), null values, tags, other notations of numbers; a floating-point number is its text; enumerators outside of the enumerations; reading and writing `FlexrayControllerConfig` and `MatchingLabel` alone |
| `config/YamlValidator.cpp` | all of `schemaPaths_v1`, `MakePath`, `ElementName`, `ParentPath`, `IsReservedElementName`, `IsSchemaPath`, `ValidatingVisitor`, `visit_stacked`, `ValidateWithSchema` | positions in messages, documents for which `is_doc` holds, nodes without a type (an error here, but the traversal goes on), the unsynchronised global cache of reserved names |
| `core/vasio/io/impl/AsioGenericRawByteStream.cpp` | requests, completions, retries, shutdown and its report, at the granularity of the mutex | errors of starting an operation or of closing, socket options, endpoints, several I/O threads, artificially limited transfer sizes (a special case of partial transfers) |
| `services/pubsub/DataSubscriber.cpp`, `DataSubscriberInternal.cpp`, `DataPublisher.cpp` (C56) | creation of an internal subscriber per matching publisher, its registration on the publisher's own link, publishing, calling of the handler | time stamps, tracing, replay, default handlers set later; that discovery tells every participant of every publisher (C11) is a choice of the history here; an internal subscriber is numbered by its subscriber, which is enough because there is one per publisher and link |
| `dashboard/DashboardInstance.cpp`, `LockedQueue.hpp`, `DashboardBulkUpdate.hpp`, `service/DashboardRestClient.cpp`, `service/SilKitToOatppMapper.cpp` (bulk updates), `client/DashboardSystemServiceClient.cpp` | Model/Dashboard.lean | the HTTP client, the conversion to JSON, the retry timer and the metrics payload are not modelled; a failed request counts as sent; only the worker with bulk updates |
| `ConnectKnownParticipants.cpp:251-478`, `RemoteConnectionManager.cpp:37-94`, `VAsioConnection.cpp:141-165, 742-802, 925-1158, 2145-2279` | Model/Connecting.lean | One pair of participants and the registry; versions of the protocol, acceptor URIs and the text of capabilities left out (a declaration is a set of two flags, or cannot be read); messages of other pairs left out |
| `util/Hash.hpp`, `core/internal/ServiceDescriptor.hpp:170, 264-306, 347-350`, `VAsioTransmitter.hpp:96-122, 165-180`, `LinController.cpp:714-726, 872-884`, `VAsioConnection.cpp:872-880`, `StringHelpers.cpp:99-118` | Model/Names.lean | Names are lists of bytes; of a LIN node only the configuration; one receiver per participant and link; the vector of LIN nodes as a table by address |
- The check for participants that do not support autonomous ones (C81): the discovery handler of `TimeSyncService`, `StartTime`, `ParticipantHasAutonomousSynchronousCapability`, `ParticipantHasCapability`, and the settings they read. Not modelled: the text format of capabilities, and what `AbortSimulation` does (C52).
- The setting for dynamic steps (C80): `ConfigureDynamicStepSize`, `RecomputeDynamicStepEnabled`, the part of the discovery handler that tracks requests, and what `InitializeTimeSyncPolicy` advertises; two threads, interleaved. What the flag does to steps is C16.
- The handshake between versions (C79): `SendParticipantAnnouncement`, `ReceiveParticipantAnnouncement`, `SendParticipantAnnouncementReply`, `SendFailedParticipantAnnouncementReply`, `ReceiveParticipantAnnouncementReply`, `SendKnownParticipants`, `ReceiveKnownParticpants`, `ReceiveRegistryMessage`, on bytes. The decision of the registry is a parameter (it is C24). Not modelled: the acceptor URIs a participant puts together for its announcement, remote connect requests, proxies, time-outs.
| source/tracing/ReplayScheduler.cpp:33-293, 317-375, tracing/Tracing.cpp:100-144 | Model/ReplayChannel.lean | files are parameters (MDF files are read by an extension that is not in the repository); the log is left out |
| source/services/lin/LinController.cpp:1005-1052 (ReplayMessage), tracing/Tracing.cpp:141-144, tracing/IReplayDataController.hpp:19-26 | Model/LinReplay.lean | on top of Model/Lin.lean; when frames are replayed is Model/Replay.lean; log and traces are left out |
| source/extensions/SilKitExtensions.cpp, detail/LoadExtension_posix.cpp, SilKitExtensionImpl/DllCache.hpp, SilKitExtensionLoader.hpp, CreateMdf4Tracing.cpp | Model/Extensions.lean | POSIX variant; the operating system is a parameter; one thread makes the requests; the log and the end of the process are left out |
| source/core/vasio/VAsioTransmitter.hpp (SendMessageToTarget), SilKitLink.hpp (DispatchSilKitMessageToTarget), VAsioConnection.hpp:152-163,405-448 | Model/Targeted.lean | a subscription is one event (Model/Links.lean has the protocol); receivers within a participant are left out; participants have different names that are not empty |
| source/experimental/netsim/SimulatedNetworkRouter.cpp (conversions), eventproducers/*.cpp, NetworkSimulatorInternal.cpp:28-56,107-123, source/capi/CapiNetworkSimulator.cpp, include/silkit/detail/impl/HourglassConversions.hpp (network simulation), detail/impl/netsim/*.hpp | Model/NetSimValues.lean | pointers to local variables replaced by values (the frames of LIN responses keep their pointers); receivers are controllers of the network; exceptions of user code and the rest of `Start` left out |
| source/capi/Capi*.cpp (146 functions), CapiImpl.hpp, include/silkit/capi/InterfaceIdentifiers.h, detail/impl/HourglassConversions.hpp (pointers of events) | Model/CApi.lean, Model/CApiTable.lean | arguments are seen as null pointers and numbers; every pointer is used once after the checks; results after the call; what the library does is any outcome; dangling pointers not modelled |
| capi/CapiOrchestration.cpp:213-305, detail/impl/services/orchestration/LifecycleService.hpp:228-256 | Model/LifecycleWait.lean | Lifecycle itself is the environment (C17, C18); races only if a thread is inside `get`; arguments not null; the process does not end |
| Utilities/SilKitRegistry/Registry.cpp, Registry.hpp; util/SignalHandler.cpp (installation); ValidateAndSanitizeConfig.cpp (URI) | Model/RegistryTool.lean | Absolute paths that are different files, no console output, no Windows service, command line already parsed (C63), serialisation of the generated configuration is a parameter (C53), SIGINT and SIGTERM caught at the same time |
| TimeProvider.cpp:29-203, TimeProvider.hpp:79-121, util/Timer.hpp:39-101 | Model/TimeProvider.lean | handlers are all called when an invocation begins (reentrancy: Model/Handlers.lean); handlers do not throw; configuring from a handler called by a replaced implementation, and the data race on `_m.callback` (same schedules as the deadlock) are left out |
| SystemController.cpp:132-231, 263-274, 302-306, 371-415, 446-449; util/SignalHandler.cpp:134-258 (UNIX) | Model/StopSignal.lean | time passes only in `wait_for`; the pipe neither fills nor fails; ignored signals (SIG_IGN) are left out; when the final state is reached is a parameter |
| Participant_impl.hpp:873-908; SystemMonitor.cpp:131-250; VAsioConnection.cpp:742-772, 1142-1167, 1349-1393, 1439-1458, 1793-1797, 1866-1882; SystemController.cpp:38-101, 334-340, 431-440 | Model/Presence.lean | the system state tracker is left out (Model/SystemState.lean); one simulation name; the mutex of the receivers is left out; handlers called on both threads are called one after the other; the connection to the registry is left out |
| VAsioRegistry.cpp:72-174; VAsioConnection.cpp:60-139, 489-558, 1234-1330; io/impl/AsioIoContext.cpp:179-302; AsioAcceptor.hpp:99-104; AsioCleanupEndpoint.cpp | Model/Rendezvous.lean | one machine; name resolution does not change; connections to listening sockets succeed; no other programs listen; the hash is a parameter (theorems assume that it has no collisions) |
| util/CommandlineParser.hpp; the declarations in Registry.cpp, PassiveSystemMonitor.cpp and SystemController.cpp | Model/CommandLine.lean | characters instead of bytes; all assignments are kept, the last one counts; no usage texts |
| services/metrics (MetricsManager, MetricsProcessor, MetricsJsonSink, MetricsRemoteSink, MetricsReceiver, MetricsDatatypes) | Model/Metrics.lean | rational numbers instead of doubles, their text is a parameter; times are natural numbers; the timer thread and the links of participants that join later are left out |
| core/participant/ValidateAndSanitizeConfig.cpp, Participant_impl.hpp (Create functions, 258-748, 846-872, 910-919, 1673-1771), PubSubSpec.hpp and RpcSpec.hpp (AddLabel), ReplayScheduler.cpp (ConfigureController, as to exceptions) | Model/Creation.lean | one thread except for the lifecycle/monitor flag, UUIDs are numbers that never repeat, the result of `std::sort` is any sorted permutation |
| services/logging/Logger.cpp, Logger.hpp, LoggerMessage.hpp, LogMsgSender/Receiver, StringHelpers.cpp (EscapeString, PrintableString), CapiLogger.cpp, CapiVendor.cpp (GetLogger) | Model/Logging.lean | formatting of dates is a parameter, colours and source locations are left out, spdlog's sinks are taken to append lines, texts are lists of characters |

No part of: the C API (`capi`), the YAML configuration, the dashboard, extensions, the network simulator API (`experimental/netsim`), logging, metrics, tracing.

## 5. Disagreements between code and property found while modelling

Each line names the theorem that exhibits the behaviour on the model (a concrete history, checked by the kernel).

| property | theorem | what the code does |
|----|----|----|
| C06 | `C06_time_precision_is_lost` | a `system_clock` time stamp travels in whole microseconds |
| C07 | `C07_hostile_timestamp_overflows` | a time stamp read from the wire is multiplied without check: signed overflow |
| C07 | `C07_short_registry_message_reads_out_of_bounds` | the registry kind of a message is peeked without looking at the size of the message |
| C08 | `C08_oversized_unsigned_value_corrupts_next_field` | a value with more bits than the declared size overwrites the next field |
| C08 | `C08_oversized_bit_size_is_undefined_behaviour` | a bit size above 64 shifts by more than the width |
| C10 | `C10_optional_label_match_is_missed`, `C10_optional_label_reported_twice`, `C10_rpc_client_with_mandatory_label_misses_existing_server` | the index by labels looks up only some combinations: matches are lost or doubled |
| C11 | `C11_slash_in_name_hides_a_service` | services are known by a concatenation with slashes, so two services can share a key |
| C12 | `C12_negative_duration_reverses_time` | a negative step duration is accepted |
| C13 | `C13_hop_on_overtakes`, `C13_continue_during_async_step` | a participant that hops on, or continues while an asynchronous step is open, is outside the ordering |
| C14 | `C14_shortening_aborts` | shortening the step size can make a time request of another participant lie in the past |
| C17 | `C17_interrupted_startup_leaves_graph`, `C17_error_during_startup_is_forgotten` | start-up steps are not cancelled by a stop, abort or error in between |
| C18 | `C18_interrupted_startup_never_completes` | after such a start-up the future never completes |
| C19 | `C19_interrupted_startup_repeats_handlers` | and handlers are called again |
| C20 | `C20_aborting_hides_error`, `C20_shutting_down_hides_error`, `C20_error_before_workflow_is_missed`, `C20_disconnect_of_other_matters`, `C20_state_depends_on_history` | the tracked system state is not a function of the current states |
| C21 | `C21_crash_in_error_goes_unnoticed` | a participant that crashes in the error state is not reported |
| C22 | `C22_second_request_is_dropped` | a second barrier requested while one is open is dropped without an error |
| C23 | `C23_concurrent_call_returns_early`, `C23_concurrent_call_fails`, `C23_concurrent_call_completes_twice`, `C23_does_not_wait_for_shared_receiver`, `C23_async_handler_called_early` | one set of pending acknowledges is shared by concurrent registrations |
| C24 | `C24_second_announcement_is_undefined_behaviour` | a peer that announces itself twice is inserted twice |
| C25 | `C25_rejected_duplicate_makes_unreachable`, `C25_rejected_duplicate_is_reported_gone` | the tables are keyed by name, a rejected duplicate removes the entry of the accepted one |
| C26 | `C26_silent_remote_is_not_noticed` | a remote that accepts the connection but never replies keeps joining from returning |
| C27 | `C27_second_subscriber_gets_no_history`, `C27_local_subscriber_gets_no_history` | the history is replayed only when a participant subscribes to a link for the first time |
| C38 | `C38_lin_and_flexray_networks_of_one_name_are_mixed_up`, `C38_second_of_two_mixed_up_links_is_deaf` | `SerdesName` is "CONTROLLERCONFIG" for the LIN and the FlexRay controller configuration |
| C36 | `C36_self_removal_is_undefined_behaviour`, `C36_handlers_added_meanwhile_are_called_too` | `SynchronizedHandlers::InvokeAll` iterates the map under a recursive mutex; a handler that removes itself invalidates the iterator in use |
| C31 | `C31_counterexample_sleeping_slave_responds` | a sleeping slave still responds, but the master does not count it |
| C31 | `C31_counterexample_departed_slave_is_counted` | slaves that left stay in the master's table: a request to them is never answered nor reported |
| C31 | `C31_counterexample_late_master_misses_updates` | only configurations have a history: a master that joins later does not learn responses set after the initialisation |
| C31 | `C31_counterexample_no_response_reported_as_error` | the missing response has unknown length and fails the length check of the receiver |
| C31 | `C31_counterexample_unknown_length` | a response of unknown length makes the responder throw while it handles the header |
| C32 | `C32_counterexample_dynamic_response_not_rejected` | `ThrowIfNotDynamic` has its condition inverted |
| C32 | `C32_counterexample_sleeping_sendFrame_not_rejected`, `C32_counterexample_sleeping_sendFrameHeader_not_rejected` | sleeping masters get no error; headers are even sent |
| C32 | `C32_counterexample_large_identifiers` | identifiers above 63 index the response table out of bounds |
| C33 | `C33_counterexample_unchecked_parameters` | `pChannels`, `pdMicrotick`, `pSecondKeySlotId` and `pTwoKeySlotMode` are not checked |
| C33 | `C33_counterexample_configuration_before_simulation_is_lost` | calls before the network simulation is found are addressed to nobody |
| C34 | `rpc_timeout_after_results` | a timeout that passes after the call was answered dereferences `end()` (RpcClient.cpp:114-121; timeout entries are never removed) |
| C34 | `rpc_unsynchronized_two_results` | without synchronization, the timer may run while a response is handled: `Success` and `Timeout` for one server, and then a dangling iterator |
| C34 | `rpc_departed` | servers that leave are not subtracted from the responses that a call waits for: the call never completes |
| C34 | `rpc_submit_before_enrolled`, `rpc_handler_missed` | a call, or a handler that is set, between the creation of the internal server and its insertion in `_internalRpcServers` is lost |
| C34 | `rpc_submit_twice` | submitting a second result after the handler has returned uses a handle that does not exist any more |
| C35 | `watchdog_second_step_unreported`, `watchdog_second_warning_unreported` | the state of the watchdog belongs to the thread, not to the step: a second late step is not reported if the watchdog sees nothing in order between the two |
| C35 | `watchdog_no_warning_before_timeout` | if the first look is after the hard timeout, only the timeout handler is called |
| C35 | `watchdog_late_clock` | the start time is loaded before the clock is read; a step that ended in between is reported with the wrong duration |
| C35 | `watchdog_unseen` | a step longer than both timeouts that falls between two looks is not reported |
| C37 | `uri_odd_ports` | `silkit://a:-1` is accepted with port 65535, `silkit://a:8500x` with port 8500 |
| C40 | `connect_failure_at_once_is_reported_twice` | if a connector fails before `AsyncConnect` returns (setting socket options fails, `AsioConnector.hpp:154-160`), `TryNextUri` runs twice: with the last address, the failure is reported twice |
| C42 | `C42_removing_a_slave_configuration_handler_frees_a_wakeup_handler` | `LinController::RemoveLinSlaveConfigurationHandler` of the C++ API erases from `_wakeupHandlers` (LinController.hpp:403): the wakeup handler with the same number is destroyed while it is still registered; the next wakeup uses it |
| C42 | `C42_setting_the_handler_of_a_server_is_undefined_behaviour` | `RpcServer::SetCallHandler` of the C++ API gives `this` as context (RpcServer.hpp:115), which the callback takes for a `HandlerData`: every call after it is undefined behaviour |
| C43 | `C43_status_events_lose_the_refresh_time` | the status handler of the C++ API sets `refreshTime` from `enterTime` (SystemMonitor.hpp:152-153) |
| C43 | `C43_an_empty_payload_is_refused` | a FlexRay `UpdateTxBuffer` with a valid empty payload is refused as bad parameter, because an empty span is passed as null pointer (CapiFlexray.cpp:188) |
| C43 | `C43_wrong_headers` | the frame of a LIN frame status event has no structure header (CapiLin.cpp:268); LIN frame header events and FlexRay frame transmit events carry the header of another structure (CapiLin.cpp:440, CapiFlexray.cpp:305) |
| C43 | `C43_old_node_parameters_read_uninitialised_memory` | FlexRay node parameters of version 1 are accepted, but two members of the configuration given to the service are then uninitialised (CapiFlexray.cpp:87-91, 145) |
| C43 | `C43_unknown_exceptions_show_an_old_text` | `catch (...)` does not set the error string; the user sees the text of an earlier error |
| C44 | `pcap_trace_throws_iff` | tracing a frame without bytes throws (`raw.at(0)`) after the packet header was written; `SendFrame` of a traced controller throws and sends nothing |
| C44 | `pcap_concurrent_traces_mix` | the `unique_lock` in `PcapSink::Trace` is constructed without the mutex: traces of two threads can be mixed, and the file contains frames that nobody sent |
| C44 | `C44_wrong_version_is_accepted` | the version check uses `&&` instead of `\|\|`: a file with only one wrong version number is accepted |
| C44 | `C44_other_programs_show_other_times`, `C44_microsecond_files_are_refused` | the magic number 0xa1b23c4d means nanoseconds, but microseconds are written: other programs show wrong times, and ordinary files with microseconds are refused |
| C45 | `C45_sends_nothing_without_source`, `C45_blocked_without_replay` | replay is configured without a (known) trace source: user sends are swallowed and nothing is replayed; the validation of the references (`Config::Validate`) is not called |
| C46 | `C46_replayed_too_early` | times are rounded down to microseconds, so a frame can be replayed one step too early |
| C46 | `C46_replayed_too_late` | recorded times are absolute, replayed ones count from the first step of the participant |
| C46 | `C46_received_frames_are_sent`, `C46_nothing_is_received_from_pcap` | the direction is not recorded in PCAP: received frames are replayed as sent ones, and a replay for receiving delivers nothing |
| C47 | `C47_files_beside_the_root_are_not_found` | the directory of the root file is put before the name of the included file without a separator: files beside the root are only found in the working directory, although the documentation promises the path of the including file as search path |
| C47 | `C47_deep_includes_are_ignored` | files that are reached by more than 127 includes are ignored without an error |
| C47 | `C47_root_is_included_again`, `C47_other_name_is_read_again` | the root, and files under another name, are read twice; with a participant name or acceptor URIs the configuration is then refused |
| C48 | `C48_different_services_are_dropped`, `C48_transmit_buffers_are_dropped` | `operator==` of publishers, subscribers, RPC servers and clients ignores name, topic, labels and history (and that of FlexRay controllers the transmit buffers): a different element of the same name is silently dropped |
| C48 | `C48_timeouts_are_redefined` | the check for the health check timeouts is inverted: different values are accepted (the last wins), equal ones are refused |
| C48 | `C48_written_defaults_are_overridden`, `C48_middleware_is_defined_twice` | options may be defined more than once: a default value that is written is overridden, the same value twice is accepted |
| C48 | `C48_metrics_options_are_lost` | `CollectFromRemote` and `UpdateInterval` are never taken over into the configuration |
| C48 | `C48_versions_of_includes_are_not_checked` | the schema version of included files is not checked |
| C49 | `proxy_ub_iff_registry_lost_after_left`, `proxy_registry_lost_ub_example` | A proxy peer that is destroyed because its participant left stays in `_peerToProxyPeers`. When the registry is lost afterwards, `OnPeerShutdown` shuts down all peers in that set, including the destroyed ones: a use after free (VAsioConnection.cpp:1355-1392, 1438-1458). |
| C49 | `proxy_never_told_example` | The registry notifies the participants a participant has written to (`_proxySourceToDestinations`), not the ones that wrote to it. A participant that initiated a proxy connection is never told when the other one leaves before it has answered (VAsioConnection.cpp:1394-1424, 1560-1579). |
| C50 | `C50_late_once_late_for_ever`, `C50_never_less_behind` | A participant that is late does not catch up. The flag set by the thread when a step is still executing is one bit, so of the sync points that pass during a step all but one are lost (TimeSyncService.cpp:821-829, 600-627): a handler that once takes k + 1 periods leaves the participant k steps behind for ever, although every later step is completed at once. |
| C50 | `C50_announced_early_to_newcomer` | A participant that is discovered is told the next step at once, before it is due. |
| C50 | `C50_announced_while_executing` | The thread checks whether a step is executing before it defers the request (821-833); a message of another participant in between starts the step, and then the request announces the step after it while this one is executing: the other participants may go on before the step is completed. |
| C50 | `C50_changed_duration_starts_early` | A step duration that another thread changes between the wake-up of the thread and the execution of the step moves the sync point too far, and the next step starts early. |
| C51 | `producer_missing_for_same_name` | Discovered networks are stored by name without the type (NetworkSimulatorInternal.cpp:194-220). If a CAN and a LIN network with the same name are simulated, `SetEventProducer` is never called for the second one, so its controllers cannot be answered. |
| C51 | `duplicate_network_is_undefined` | `SimulateNetwork` for a network that is simulated already throws (NetworkSimulatorInternal.cpp:107-122) after the router registered itself as receiver; the router is destroyed and the next message on the network is delivered to it: use after free. |
| C51 | `failed_start_is_final` | If another participant simulates the network already, the exception leaves `Start` while the known services are replayed: the handler is not registered, the simulator counts as started, all its other networks never see a controller, and calling `Start` again does nothing. |
| C51 | `detached_by_another_type` | `IsRelevantNetwork` compares the name but not the type of the network (CanController.cpp:82-87 and the others). A simulator of a LIN network detaches a CAN controller on a network with the same name: it no longer reaches the other CAN controllers, and `SendFrame` throws because the simulator does not receive CAN frames. The API promises this only for controllers with the same name and type. |
| C51 | `second_simulator_ends_first` | A controller does not check whose link was removed: if a second simulator for the same network name leaves, the controller switches to the trivial simulation although the first one is still there. |
| C51 | `state_of_another_controller` | The CAN and Ethernet event producers keep one state for all controllers and send it with every status event: a controller that gets an error state event is also told the controller state that was produced for another one (CanEventProducer.cpp:29-55, EthernetEventProducer.cpp:29-55). |
| C52 | `c52_late_workflow_stuck` | A workflow configuration that arrives after the participants have started can leave the simulation stuck: `UpdateRequiredParticipants` (SystemStateTracker.cpp:106-130) triggers the computation with the state of the *first* required participant (320-333). If that one is already ahead (it received the configuration earlier, and its new state overtook the configuration, which comes over a different connection), the system state stays Invalid, the lifecycle is never told ServicesCreated, and everybody waits for ever |
| C53 | `sink_topics_are_lost` | `Write(Sink)` (YamlWriter.cpp:231-239) does not write `Experimental/EnabledTopics` and `DisabledTopics`: a sink with a filter logs everything after the round trip |
| C53 | `sink_format_is_lost` | `Write(Sink)` does not write `Format`: a file in simple format becomes a JSON file and a terminal with JSON becomes one with simple format |
| C53 | `written_configuration_cannot_be_read_iff` | A file sink with an empty name (`LogName: ""` is accepted by the reader) is written without `LogName`; the reader then throws. Names of other sinks are written but not read |
| C53 | `replay_without_source_is_lost` | A `Replay` without `UseTraceSource` is not written (YamlWriter.hpp:135-141), its direction and MDF channel are lost |
| C53 | `update_interval_is_lost` | `operator==(Metrics)` (ParticipantConfiguration.cpp:133-136) ignores the update interval, so `NonDefaultWrite` drops the metrics if only the interval is set |
| C53 | `registry_with_metrics_cannot_be_written` | `Write(SilKitRegistry::Config::V1::Experimental)` (YamlWriter.cpp:623-627) does not call `MakeMap`, so that writing any registry configuration with settings for metrics throws |
| C53 | `flexray_parameter_wraps` | Required FlexRay parameters, and the history length of a publisher, are read without `overflow_checked` (YamlReader.hpp:141-145, in contrast to 68-73): 258 for a parameter of one byte is read as 2 without an error |
| C54 | `list_below_unknown_element_is_rejected` | "Unknown, non-reserved elements are only warned about", but a list of scalars below any unknown element is an error |
| C54 | `reserved_name_below_unknown_element_is_rejected` | An unknown element is ignored, but if a map below it has a key that is a name of the schema anywhere (`Name`, `Type`), the document is rejected |
| C54 | `key_with_separator_is_silently_without_effect` | A key such as `Logging/FlushLevel` at the root is taken for a known path: there is no message and no effect |
| C54 | `empty_key_is_silently_without_effect`, `empty_key_at_the_root_is_rejected` | An empty key has no message and no effect in any known map, but is an error at the root |
| C54 | `duplicate_message_names_the_wrong_path` | The message about a key that occurs twice names the path of the surrounding map, not of the map that has the key twice |
| C54 | `accepted_document_may_be_unreadable` | The schema does not distinguish lists, maps and scalars: a map in the place of a list passes without a message, and reading then fails |
| C55 | `second_request_is_accepted_before_the_report` | A request that is made between the completion of the previous one and its report to the listener is accepted, although the previous one still counts as open for the user; its buffers replace the ones the listener is told about |
| C55 | `failed_write_discards_received_data`, `nothing_is_delivered_after_shutdown` | A failing write closes the socket at once; what the peer sent before it closed the connection, for instance the reason, is never delivered, even if a read is pending |
| C56 | `C56_local_late_joiner_misses_the_last_value` | A subscriber that is created later in the publisher's own participant does not get the last value, unlike late subscribers elsewhere |
| C56 | `C56_matching_subscriber_may_hear_nothing` | A subscriber that matches a publisher never hears anything of it if each has an optional label that the other lacks and another publisher alike came first, although both participants are connected and know of each other (the end-to-end effect of C10) |
| C57 | `C57_received_ignore_topics` | The topic filters of a sink do not apply to messages from other participants: `LogReceivedMsg` only compares levels (Logger.cpp:426-467). |
| C57 | `C57_own_messages_twice` | A participant with `LogFromRemotes: true` and a `Remote` sink writes each of its own messages twice: `LogMsg` allows self delivery, and the receiver does not recognise its own messages. |
| C57 | `C57_topic_doubled` | Messages logged without structure are sent with the topic in the text (Logger.cpp:399) and get it again at the receiver: `[User] [User] x`. |
| C57 | `C57_off_is_written` | A message with level `Off` is written to all sinks, even those with level `Off`. |
| C57 | `C57_unknown_level_throws` | A level outside the enumeration (possible in the C interface) makes the call fail with `TypeConversionError`. |
| C57 | `C57_early_messages_lost` | Messages logged before `SetupRemoteLogging` are never published, they are not kept for later. |
| C57 | `C57_registry_logger_rejected` | `SilKitRegistry_GetLogger` returns a null pointer, always (VAsioRegistry.cpp:185-188), and logging through it fails. |
| C57 | `C57_files_collide` | `PrintableString` is not injective: participants `a/b` and `a2Fb` share a log file. |
| C58 | `C58_control_characters_break_lines` | `EscapeString` leaves other control characters (e.g. escape sequences of terminals) as they are: the line is not valid JSON. |
| C58 | `C58_name_forges_fields` | The name of the participant is not escaped in JSON lines (Logger.cpp:299): a name with a quote forges fields of the entry. |
| C58 | `C58_simple_lines_forged` | In the simple format line breaks in the text are kept: one message can pretend to be several. |
| C59 | `C59_failed_creation_remains` | `UseTraceSource` with a name that does not exist makes `ConfigureController` throw `std::out_of_range` (ReplayScheduler.cpp:340) after the service has been registered and announced: the call fails, the service stays, and the creation can never be repeated. |
| C59 | `C59_passed_history_counts` | `CreateDataPublisher` rejects a history above 1 passed by the user even if the configuration overrides it with a valid one. |
| C59 | `C59_duplicate_labels_ambiguous` | Configured labels may contain a key twice; which of them is used depends on how `std::sort` (not stable) orders them. |
| C59 | `C59_once_not_atomic` | The flag that allows one lifecycle service is tested and set without lock: two threads may both pass (`CreateLifecycleService`, Participant_impl.hpp:848-871). |
| C60 | `C60_changes_get_lost`, `C60_stale_value` | Metrics are changed without the lock that `SubmitUpdates` takes. A change between the reading of a metric and `_lastSubmitUpdate = MetricClockNow()` (MetricsManager.cpp:166-183), or one that has taken its time stamp but not written its value, is never reported unless the metric changes again. (In C++ this is also a data race.) |
| C60 | `C60_same_tick` | `timepoint <= _lastSubmitUpdate` (MetricsManager.cpp:169) skips changes with the same clock value as the last submission; only on Windows is the clock made strictly increasing, and only per thread. |
| C60 | `C60_names_coincide` | The parts of a metric name are joined by slashes without escaping: participant `p/q` of simulation `s` and participant `q` of simulation `s/p` share their counters. |
| C60 | `C60_mean_is_not_the_mean` | The documented mean of a statistic is an exponential average that starts at 0: after a single value `v` it is `v/2`, outside of minimum and maximum. |
| C60 | `C60_remote_sinks_duplicate` | Each configured remote sink sends every report, so with two of them collectors get everything twice. |
| C61 | `C61_lists_not_escaped` | String lists escape only quotes and backslashes (MetricsManager.cpp:353-372): a list with any control character makes the line invalid JSON. |
| C62 | `C62_recording_ends_with_the_first_departure`, `C62_not_recorded_while_connected`, `C62_no_second_start` | the registry takes a simulation for finished when no participant that has reported a state is left: if A leaves before B has reported one, the simulation is reported to have stopped, B's states are lost, and participants that connect later are not recorded |
| C62 | `C62_unknown_service_ends_reporting`, `C62_failure_is_final` | a controller of an unknown type, or one without the expected supplemental data (e.g. of a newer participant), throws in the worker; nothing is reported about any simulation from then on |
| C62 | `C62_shutdown_loses_the_end` | when the registry is ended while events are pending, accumulated updates and the end of the simulation are not sent |
| C62 | `C62_metrics_overtake_connections`, `C62_order_between_kinds_is_lost` | metrics are sent at once, before the accumulated connection of their participant, and within an update the order between states of the system and of participants is lost |
| C62 | `C62_refused_simulation_is_lost` | if the creation of a simulation fails once, it is not tried again and all of its events are lost |
| C63 | `C63_option_swallows_option` | not a violation, but surprising: an option without `=` takes the next argument as its value whatever it is, so `--log --listen-uri=…` sets the log level and not the URI |
| C63 | `C63_empty_value_is_no_value` | `--dashboard-uri=` cannot clear a value: an empty value means the default, even if another value was given before |
| C63 | `C63_names_with_a_dash_cannot_be_given` | the system controller cannot be told to wait for a participant whose name begins with `-` (there is no `--` to end the options), although such names are accepted for participants |
| C64 | `C64_second_registry_splits` | a registry that is started with the URI of another one that runs starts successfully (the failure of TCP is only logged) and takes over the domain socket in its directory: participants with this URI are split between two registries |
| C64 | `C64_end_takes_the_socket_of_another` | a registry that ends removes the socket file of its path even if it belongs to another registry; then nobody can find this one |
| C64 | `C64_without_tcp_the_text_counts` | a registry without TCP socket is only found with the URI exactly as it was given to it, not with a simulation name or without port |
| C64 | `C64_local_uri_cannot_be_joined` | a registry can be started with a `local://` URI, but participants with such a URI always fail |
| C64 | `C64_no_tcp_on_ipv6_addresses` | a registry with an IPv6 address in its URI never gets a TCP socket: `AcceptTcpConnectionsOn` passes the address with its brackets to `make_address` |
| C64 | `C64_ipv6_addresses_with_letters_are_not_reached` | addresses like 2001:db8::a are not reached by TCP: `CleanIpAddress` removes brackets only around digits and colons |
| C65 | `C65_ghost_after_snapshot`, `C65_ghost_before_registration` | a participant that goes while the monitor is being created, or after it was created but before the I/O thread has carried out the posted registration of the shutdown callback, is reported as connected (or never as disconnected) and stays connected for ever |
| C65 | `C65_missed_between_receivers_and_name`, `C65_missed_before_assignment` | a participant that introduces itself while the monitor is being created is unknown to it; one that does while the handler is being set is never reported |
| C65 | `C65_reported_twice` | a participant that introduces itself while the handler is being set may be reported twice |
| C65 | `C65_reconnect_forgotten` | the return of a participant before its old connection was closed is not reported, and afterwards it is regarded as absent |
| C65 | `C65_unknown_departure` | a connection that ends without an announcement is reported as the departure of a participant with an empty name (the loss of the registry as that of a participant named like the registry) |
| C65 | `C65_workflow_without_participant` | the system controller sets the disconnected handler after the connected handler: a required participant that goes in between is counted, and the simulation is started without it |
| C65 | `C65_own_name_never_starts` | the system controller accepts its own name as a required name, and then waits for ever |
| C66 | `C66_running_simulation_is_aborted` | `StopOrAbort` calls `SystemState()` for every comparison: a simulation that is continued between two of them is aborted instead of stopped, although it was running or paused all the time |
| C66 | `C66_never_ends` | if the final state is not reached the utility reports an error and then blocks for ever (the future is not completed in the error state); the signal worker handles one signal only, so that further Ctrl-C are ignored |
| C66 | `C66_signal_lost` | a signal that the worker has not looked at when the handler is removed is lost: the number is overwritten |
| C66 | `C66_log_upper_case` | `--log WARN` passes the check, which ignores case, but then the configuration cannot be loaded |
| C67 | `C67_add_deadlocks` | adding a handler (first `CallWithTimeout` of a second RPC client) while a tick is on its way blocks for ever: `AddNextSimStepHandler` joins the timer thread with the mutex held that the timer thread waits for; afterwards `Now()` blocks, too |
| C67 | `C67_add_in_handler_terminates` | the first `CallWithTimeout` of another client in a result handler that is called on the timer thread joins the thread from itself: `std::system_error` is not caught and the process ends |
| C67 | `C67_handlers_forgotten` | starting the lifecycle without time synchronization replaces the provider without starting its timer: RPC clients that made a call with a timeout before are never told about time again, their timeouts do not occur until another handler is added |
| C67 | `C67_stale_tick` | a tick on its way while synchronized time is configured calls handlers with the time of the computer in synchronized time |
| C67 | `C67_durations_drift` | every tick counts as exactly 100 µs, however much time has passed: timeouts occur late |
| C68 | `C68_two_connections` | the time for the attempt of the peer passes and the registry relays; the attempt then succeeds, and the participant announces itself again (`HandleConnectedPeer` is called in every stage): the peer knows it twice |
| C68 | `C68_accepted_after_giving_up` | the same, if relaying was not possible: the participant has given up (its creation fails), and is still accepted by the peer |
| C68 | `C68_waits_for_ever` | the peer answers that it is connecting and crashes: the timer has no effect in this stage, nobody notices, and the participant waits for ever |
| C68 | `C68_unreadable_declaration_crashes` | capabilities that cannot be parsed are caught in `TryRemoteConnectRequest`, but not in `TryProxyConnect`: the exception ends the I/O thread |
| C68 | `C68_registry_without_relaying` | the capabilities of the registry are not looked at: a registry that does not relay drops the announcement, and the participant waits for a reply that never comes |
| C69 | `C69_neighbouring_characters_collide`, `C69_every_id_belongs_to_a_name`, `C69_every_name_shares_its_id` | the identifier of a participant is the DJB2 hash of its name: `BusAb` and `BusBA` have the same one, and every participant shares its identifier with a name of 13 or 14 printable characters |
| C69 | `C69_leaving_removes_another` | `RemoveRemoteReceiver` compares identifiers: when one of two such participants leaves, the other one loses its subscription, and the next message is sent through a dangling pointer |
| C69 | `C69_lin_configuration_ignored`, `C69_lin_configurations_merged` | LIN controllers of such participants ignore each other's configuration, and others merge them |
| C69 | `C69_taken_for_the_registry` | a name whose hash is zero (e.g. `%.4$7'2@-9:9'`) is taken for the registry; the promise of the handshake is set twice, and the exception ends the I/O thread |
| C69 | `C69_slashes_hide_services` | the key of the service discovery joins names with slashes: of the controllers `x/y` in network `n` and `y` in network `n/x` of a participant, only one is announced |
| C69 | `C69_log_files_shared` | replaced characters are not marked in names of log files: `Node 1` and `Node201` share a file |
| C70 | `C70_full_disk_leaves_part_of_the_configuration` | Failures of writing the temporary file are not noticed: with a full disk a part of the configuration is renamed into place, and the registry runs without reporting anything. |
| C70 | `C70_generated_configuration_outlives_the_registry` | The generated file is not removed at the end nor at the start: a script that waits for it finds the file of the last registry, while nobody is listening. |
| C70 | `C70_temporary_file_stays` | The temporary file stays if renaming fails. |
| C70 | `C70_status_file_can_be_empty`, `C70_status_file_can_be_stale` | The status file is truncated and then written, so that readers can find nothing or a part of a word; failures are not noticed, because `std::ofstream` does not throw: the handler for exceptions in `StatusFile::Write` is never reached. |
| C70 | `C70_signal_can_be_lost` | A signal between `sigaction` and the assignment of `gSignalMonitor` is swallowed: the registry does not end. |
| C70 | `C70_signal_after_running_can_kill` | The handler is installed after the status 'running' has been written: a signal in between kills the process, and the file says 'running' for ever. |
| C70 | `C70_dashboard_is_destroyed_too_early` | `RegistryInstance` destroys the dashboard before the registry, whose thread still calls it when a participant connects or leaves: use after free. |
| C70 | `C70_flush_level_is_ignored` | `Logging/FlushLevel` of the registry configuration is read and ignored. |
| C71 | `C71_two_waiters_are_dangerous` | Two threads that wait for the same lifecycle use one `std::future` at the same time, or one that was removed. |
| C71 | `C71_wait_can_tell_the_state_of_another_participant`, `C71_broken_entry_stays` | Entries are not removed when the participant is destroyed: a new service at the same address inherits the result of the old one, although it was never started. |
| C71 | `C71_cpp_future_can_get_the_state_of_another_participant` | The C++ API's detached thread looks up the address of a service that may have been destroyed, and can be given the result of the next one. |
| C71 | `C71_second_start_spoils_the_first`, `C71_second_start_is_dangerous` | A second StartLifecycle is reported as success; it replaces the future by an invalid one, so that nobody is told about the end, or changes a future that another thread is using. |
| C72 | `C72_null_handlers_are_kept_by_subscribers_violated` | `SilKit_DataSubscriber_Create` does not check its handler (CapiDataPubSub.cpp:53-90): a null pointer is stored and called with the first message |
| C72 | `C72_unidentified_structs_are_used_violated` | nine functions do not check the identifier of their struct (data and RPC specs, Ethernet frames, FlexRay buffer updates, dynamic LIN responses and slave configurations, workflow configurations) |
| C72 | `C72_other_structs_are_read_as_frames_violated` | `SK_ID_IS_VALID` accepts the identifier of every struct in every version: a struct of another type or version passes the check and is read as the wrong type |
| C72 | `C72_null_members_are_followed_violated` | pointers inside of structs (topics, media types, labels, frames, frame responses, buffer configurations, data of byte vectors, names of required participants, receivers) are followed without a check |
| C72 | `C72_unknown_events_are_dropped_with_success_violated`, `C72_events_of_other_buses_are_read_violated` | event producers look at the data type only (CapiNetworkSimulator.cpp:485-516): an event they have no case for is dropped with SUCCESS; an event of another bus with the same number is read as one of theirs |
| C72 | `C72_unknown_commands_have_no_text_violated` | `SilKit_FlexrayController_ExecuteCmd` (and `SilKit_ReturnCodeToString`) return BADPARAMETER without setting the error string: the text of an earlier error is shown |
| C73 | `C73_status_timestamp_is_lost` | the timestamp of a LIN controller status update is not copied into the C structure (HourglassConversions.hpp:430-434): the simulator always gets 0 |
| C73 | `C73_invalid_payload_is_lost` | the payload of a FlexRay buffer update is dropped if it is marked as not valid (HourglassConversions.hpp:691-700) |
| C73 | `C73_unknown_mode_is_memory` | for an Ethernet mode other than Active and Inactive an uninitialised value is given to the simulator (SimulatedNetworkRouter.cpp:326-337) |
| C73 | `C73_old_transmit_event_is_memory` | a CAN transmit event in the structure of version 1 is accepted and sent with an uninitialised CAN identifier (HourglassConversions.hpp:470-479, CapiNetworkSimulator.cpp:488-509) |
| C73 | `C73_foreign_structures` | the `Produce` functions look at the data type only: structures of another bus are read as their own, or dropped with success |
| C73 | `C73_networks_ignored` | `SimulateNetwork` with an unknown type, or after `Start`, returns normally, nothing is simulated, and the name can not be used again |
| C73 | `C73_names_are_cut` | network names are cut at the first zero byte: a network is simulated under another name, and different names collide |
| C74 | `C74_refusal_is_not_reported` | the call returns in every state, as it is only posted to the I/O thread; the exception for a target that is no receiver (VAsioTransmitter.hpp:146-152) is logged there and the message is lost, also if the simulator leaves between the call and its execution |
| C74 | `C74_targeted_messages_are_repeated_to_others` | `SendMessageToTarget` saves the message in the history before it looks for the receiver (VAsioTransmitter.hpp:141): a message to one participant (in the code: a LIN controller configuration sent to the network simulator), even a refused one, is repeated to every later subscriber |
| C75 | `C75_incomplete_library_hides_others` | only the descriptor is checked in the loop; a library without `CreateExtension` or `ReleaseExtension` ends the search with an exception although a later one is complete (SilKitExtensions.cpp:240-241) |
| C75 | `C75_failed_constructor_is_undefined` | `CreateExtension` returns null if the constructor throws (SilKitExtensionMacros.hpp:33-44); the pointer is not checked and dereferenced (DllCache.hpp:47) |
| C75 | `C75_missing_system_name_is_undefined` | a descriptor whose system name is a null pointer is turned into a `std::string` without a check (SilKitExtensions.cpp:88) |
| C75 | `C75_rejected_libraries_stay_open` | libraries that fail the verification are never closed, and every request opens them again (SilKitExtensions.cpp:184-207) |
| C75 | `C75_unreadable_directory_fails` | `std::filesystem::exists` throws for a directory that can not be examined: every request fails, with another exception than `ExtensionError`, even if the library is in another directory; also if the path of the program has 4096 characters or more (LoadExtension_posix.cpp:73) |
| C76 | `C76_received_data_is_not_replayed` | a recorded received frame only makes the master request the header: the recorded data is sent by nobody, and without a known slave for the identifier the user gets `LIN_RX_NO_RESPONSE` (LinController.cpp:1036-1051, 417-428) |
| C76 | `C76_nothing_is_replayed_after_sleep` | after a recorded go-to-sleep frame the master stays asleep and sends none of the later frames, unless the user calls `Wakeup` (SimBehaviorTrivial.cpp:90-101); `GoToSleep` is ignored during a replay, `Wakeup` is not |
| C76 | `C76_direction_is_ignored` | the configured direction is not looked at when frames are replayed (only whether it is given): with `Receive`, recorded sent frames are sent in addition to the user's, and with `Send`, received ones are requested (LinController.cpp:1009) |
| C76 | `C76_invalid_identifier_is_undefined_behaviour` | the identifier of a recorded frame is not checked; 64 and above is read outside of the table of responses (SimBehaviorTrivial.cpp:135-151, LinController.cpp:740-753) |
| C77 | `C77_foreign_channel_breaks_creation` | a channel of the same type whose source does not have three parts makes the creation of the controller throw `std::out_of_range`, even if its own channel is there (`tokens.at`, ReplayScheduler.cpp:187-189; only `SilKitError`s are caught) |
| C77 | `C77_incomplete_channel_breaks_creation` | with a selection, all six attributes of every channel are read, also those that were not given; a channel without one of them makes the creation throw `std::out_of_range` (ReplayScheduler.cpp:170-175) |
| C77 | `C77_names_with_slashes_are_not_found` | a controller whose name, network or participant contains a slash never finds a channel without a selection (ReplayScheduler.cpp:186-190) |
| C77 | `C77_channel_of_another_is_replayed` | the channel of a controller on the network `n/m` is replayed by the controller with the name of its participant in the participant `m` on the network `n`: parts after the third are ignored |
| C77 | `C77_selection_ignores_the_type` | the type of a selected channel is not compared with the controller's: replaying it throws `std::bad_cast` in the first step (ReplayScheduler.cpp:248-255) |
| C77 | `C77_unknown_source_throws` | an unknown trace source is reported as `std::out_of_range` instead of a configuration error (ReplayScheduler.cpp:340) |
| C78 | `C78_counterexample_second_responder` | dynamic responses are remembered as configured ones: once two controllers have responded to the same identifier, to different headers, every further header for it is replaced by an error (LinController.cpp:380-386, SimBehaviorTrivial.cpp:139-150) |
| C78 | `C78_counterexample_two_responses` | two responses to one header are two good frames; no error is reported |
| C78 | `C78_counterexample_no_response_is_not_reported` | a header that nobody responds to is never reported as such, if there is a dynamic controller (SimBehaviorTrivial.cpp:141) |
| C78 | `C78_response_is_never_rejected`, `C78_counterexample_response_without_header` | responses without a header, to another header, before the initialization and at controllers that are not dynamic are not rejected, though documented to throw (LinControllerExtensions.hpp:95-99; the check in LinController.cpp:162-172 is inverted) |
| C78 | `C78_counterexample_rejected_response_counts` | a response that is rejected because of its unknown length has been distributed before, and its controller counts as a responder |
| C79 | `C79_counterexample_unsupported_version_gets_no_answer` | for every version that is not supported: on a new connection the reply that says so is never sent. Its constructor reads its headers again with the version of the connection, which is 0.0, and throws (SerializedMessage.cpp:112-131, VAsioConnection.cpp:709-716 and 820); the exception is only logged, and the announcer runs into a time-out whose text suspects a participant of the same name (VAsioConnection.cpp:582-594) |
| C79 | `C79_counterexample_rejection_of_30_is_acceptance` | to version 3.0, every rejection is the same message as an acceptance without subscriptions: the old format has no status |
| C79 | `C79_counterexample_30_reply_is_read_out_of_bounds` | a reply in the format of version 3.0 without subscriptions makes the receiver read eight bytes from a buffer with four (VAsioSerdes.cpp:270-290), on every connection |
| C79 | `C79_counterexample_30_known_participants_are_lost` | a list of known participants in the format of version 3.0 arrives as the empty list on a new connection |
| C79 | `C79_counterexample_30_participants_lose_their_simulation` | announcements of version 3.0 carry no simulation name: registries put them all into the simulation with the empty name, and participants with a simulation name reject them, with the message that looks like an acceptance |
| C80 | `C80_counterexample_opt_out_is_lost` | the setting is `false`, and dynamic stepping stays on: `RecomputeDynamicStepEnabled` computes the flag under a lock but stores it after the lock is released (TimeSyncService.cpp:881-895), so a discovery on the I/O thread that began before the setting can store its old value after it. The documentation calls `false` a hard opt-out |
| C80 | `C80_counterexample_driver_is_lost` | in the same way, a participant with the setting `true` advertises the request, and does not step dynamically itself. `C80_next_call_repairs`: the next discovery puts both right, and `C80_setting_is_kept`: they need an overlap while the setting is made |
| C81 | `C81_counterexample_unsynchronized_participant_aborts` | `CreateTimeSyncService` after `StartLifecycle` is not rejected (LifecycleService.cpp:425-444): the participant does not synchronize its time, but aborts the whole simulation because of a participant that lacks the capability |
