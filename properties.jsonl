{"id": "C01", "title": "Receive buffer is a loss-free byte FIFO", "statement": "The buffer that sits between a peer's socket and the message decoder behaves like an unbounded byte queue cut off at its capacity: bytes come out in exactly the order they were put in, none lost, duplicated or altered, whatever the interleaving of partial writes, partial reads, peeks, wrap-arounds and growth of the buffer.", "quantifier": "every capacity, every byte content and every finite sequence of write/commit/peek/read/reserve operations the peer code may issue", "why_tests_cant": "Wrap-around and growth interact; the number of (capacity, read position, fill level, chunk sizes) combinations is unbounded.", "anchors": ["SilKit/source/core/vasio/RingBuffer.cpp: RingBuffer::AdvanceWPos, AdvanceRPos, Peek, Read, GetWritingBuffers, Reserve"]}
{"id": "C02", "title": "Message framing is independent of how the stream is chunked", "statement": "A sequence of messages written to a connection is delivered to the receiving participant as exactly the same sequence of messages, regardless of how the operating system splits or merges the bytes into individual read completions; nothing is delivered before its last byte has arrived.", "quantifier": "every finite sequence of messages of legal size and every way of cutting the concatenated byte stream into read completions", "why_tests_cant": "The set of chunkings of a stream is exponential in its length and messages have arbitrary sizes.", "anchors": ["SilKit/source/core/vasio/VAsioPeer.cpp: VAsioPeer::DispatchBuffer, OnAsyncReadSomeDone, ReadSomeAsync", "SilKit/source/core/vasio/RingBuffer.cpp"]}
{"id": "C03", "title": "An illegal frame length closes the connection and delivers nothing", "statement": "If a peer sends a frame whose length prefix is zero or larger than the maximum (1 GiB), the connection is shut down and neither that frame nor anything after it is delivered; everything complete that was received before it is delivered.", "quantifier": "every byte stream containing an illegal length prefix after any number of legal frames, every chunking", "why_tests_cant": "Ranges over all byte streams and chunkings.", "anchors": ["SilKit/source/core/vasio/VAsioPeer.cpp: VAsioPeer::DispatchBuffer (size check), Shutdown"]}
{"id": "C04", "title": "Outgoing bytes are a faithful concatenation of the messages sent", "statement": "For every sequence of messages handed to a connection and for every pattern of partial writes by the socket, the bytes put on the wire are a prefix of the concatenation of those messages in order; when the connection is idle and not shut down, all bytes have been written.", "quantifier": "every message sequence, every partial-write schedule, any point of shutdown", "why_tests_cant": "Partial writes occur non-deterministically; tests use a loopback that rarely splits writes.", "anchors": ["SilKit/source/core/vasio/VAsioPeer.cpp: SendSilKitMsgInternal, StartAsyncWrite, WriteSomeAsync, OnAsyncWriteSomeDone"]}
{"id": "C05", "title": "Message aggregation never loses, duplicates or reorders user data, and step-completion messages flush it", "statement": "With message aggregation enabled, the user-data messages and the step-completion/status messages of one participant arrive at a peer in the order in which they were sent, and after a step-completion or status message has been sent no earlier user-data message is still held back.", "quantifier": "every sequence of user-data / flushing / other messages, every size, every point at which the aggregation timer fires", "why_tests_cant": "Depends on the interleaving of size threshold, timer expiry and message kinds over unbounded histories.", "anchors": ["SilKit/source/core/vasio/VAsioPeer.cpp: SendSilKitMsg, Aggregate, Flush, OnTimerExpired", "SilKit/source/core/vasio/AggregationMessageTraits.hpp: aggregationKind"]}
{"id": "C06", "title": "Wire serialization round-trips", "statement": "Every value of every message type that a participant sends is reconstructed unchanged by a receiving participant of the same protocol version, and decoding consumes exactly the bytes that encoding produced, so that consecutive fields never get out of step.", "quantifier": "every value of every modelled message type (all integers of the given width, all strings, byte vectors, lists, maps, optionals of any length below 2^32)", "why_tests_cant": "The value domain is infinite; a single dropped or swapped field only shows for particular values.", "anchors": ["SilKit/source/core/internal/MessageBuffer.hpp", "SilKit/source/services/can/CanSerdes.cpp", "SilKit/source/services/ethernet/EthernetSerdes.cpp", "SilKit/source/services/lin/LinSerdes.cpp", "SilKit/source/services/orchestration/SyncSerdes.cpp", "SilKit/source/services/pubsub/DataMessageSerdes.cpp", "SilKit/source/services/rpc/RpcSerdes.cpp", "SilKit/source/core/service/ServiceSerdes.cpp"]}
{"id": "C07", "title": "Decoding arbitrary bytes never reads outside the received message", "statement": "Whatever bytes a remote process sends, decoding a message either yields a value or raises an end-of-buffer style error; it never reads a byte beyond the received message and never reserves more elements than the message has bytes.", "quantifier": "every byte string and every modelled message type", "why_tests_cant": "All byte strings; malicious length prefixes are not enumerable.", "anchors": ["SilKit/source/core/internal/MessageBuffer.hpp: operator>>"]}
{"id": "C08", "title": "User-level bit serializer and deserializer are inverse", "statement": "A user who serializes any sequence of booleans, integers of any bit width up to their type width, floats, strings, byte arrays, optionals, unions and arrays with the public Serializer and reads them back with the matching Deserializer calls obtains the original values, including when bit-fields straddle byte and 64-bit boundaries.", "quantifier": "every sequence of typed serialize calls with values representable in the requested number of bits", "why_tests_cant": "Alignment state couples neighbouring fields; the number of width sequences is unbounded.", "anchors": ["SilKit/include/silkit/util/serdes/Serializer.hpp", "SilKit/include/silkit/util/serdes/Deserializer.hpp"]}
{"id": "C09", "title": "Label matching is symmetric and follows the documented rule", "statement": "A publisher and a subscriber (or RPC client and server) with given label lists match exactly if every mandatory label of either side is present on the other side with equal value, and every optional label of either side is either absent from the other side or has an equal value; swapping the two sides never changes the answer.", "quantifier": "every pair of label lists (with distinct keys within a list)", "why_tests_cant": "All label lists of all lengths.", "anchors": ["SilKit/source/util/LabelMatching.cpp: MatchLabels, MatchMediaType"]}
{"id": "C10", "title": "Service discovery notifies exactly the services that match", "statement": "A handler registered for a topic (or RPC function) with a media type and labels is told about a remote service if and only if topic, media type and labels match, no matter in which order services appear, disappear and handlers are registered; each appearance is reported once.", "quantifier": "every sequence of service announcements, removals and handler registrations, with arbitrary topics, media types and labels", "why_tests_cant": "The index structure behind it has history-dependent state; only particular orders expose a lost or duplicated notification.", "anchors": ["SilKit/source/core/service/SpecificDiscoveryStore.cpp", "SilKit/source/services/pubsub/DataSubscriber.cpp", "SilKit/source/services/rpc/RpcServer.cpp"]}
{"id": "C11", "title": "Discovery events alternate created / removed per service", "statement": "Every discovery handler observes, for each remote service, a strictly alternating sequence starting with 'created'; a handler registered late first receives 'created' for precisely the services currently alive, and after a participant disconnects every one of its services has been reported as removed.", "quantifier": "every interleaving of announcements, duplicate announcements, removals, participant disconnects and handler registrations", "why_tests_cant": "Ranges over all histories.", "anchors": ["SilKit/source/core/service/ServiceDiscovery.cpp"]}
{"id": "C12", "title": "Virtual time never goes backwards and steps are contiguous", "statement": "The time points a synchronized participant passes to its simulation step handler are strictly increasing, and each step starts exactly where the previous one ended (start + duration).", "quantifier": "every sequence of configuration calls with positive step durations, notifications from other participants, joins, leaves and step executions", "why_tests_cant": "All histories of remote notifications and duration changes.", "anchors": ["SilKit/source/services/orchestration/TimeConfiguration.cpp", "SilKit/source/services/orchestration/TimeSyncService.cpp: AdvanceTimeAndExecuteSimStep"]}
{"id": "C13", "title": "Conservative synchronization: nobody runs ahead of a slower participant", "statement": "When the simulation step for time t of one participant starts, every other synchronized participant of the simulation has completed all its steps with start time before t: none of them executes a step earlier than t from then on.", "quantifier": "every number of participants, every choice of positive step durations (also changing over time), every interleaving of step executions and of in-order message delivery between each pair", "why_tests_cant": "Number of participants, delays and durations are unbounded; races appear only under specific delivery orders.", "anchors": ["SilKit/source/services/orchestration/TimeSyncService.cpp: SynchronizedPolicy, CompleteSimulationStep", "SilKit/source/services/orchestration/TimeConfiguration.cpp: OtherParticipantHasLowerTimepoint"]}
{"id": "C14", "title": "No deadlock of time synchronization", "statement": "As long as at least one synchronized participant takes part, all participants are running (not paused or stopping) and all notifications in flight have been delivered, at least one participant can execute its next step; consequently virtual time grows without bound.", "quantifier": "every reachable state of a simulation with any number of participants and any positive step durations", "why_tests_cant": "Liveness over all reachable states of an unbounded system.", "anchors": ["SilKit/source/services/orchestration/TimeSyncService.cpp: RequestNextStep, ReceiveNextSimTask, ProcessSimulationTimeUpdate"]}
{"id": "C15", "title": "Data sent in an earlier step is visible before a later step", "statement": "If a participant sends a message during its simulation step at time t1 and another participant has a step at time t2 > t1, the message has been handed to the receiver before its step at t2 starts.", "quantifier": "every number of participants, step durations and delivery schedules with in-order channels", "why_tests_cant": "A violation needs a particular delivery interleaving.", "anchors": ["SilKit/source/services/orchestration/TimeSyncService.cpp", "SilKit/source/core/vasio/VAsioPeer.cpp", "SilKit/source/core/vasio/AggregationMessageTraits.hpp"]}
{"id": "C16", "title": "Dynamic step duration never skips past another participant", "statement": "With dynamic step durations enabled, the executed step of a participant ends no later than its configured duration and no later than the earliest future step start or step end announced by another participant; its duration is positive.", "quantifier": "every set of announced time points and durations, every configured duration", "why_tests_cant": "Ranges over all sets of remote schedules.", "anchors": ["SilKit/source/services/orchestration/TimeConfiguration.cpp: GetMinimalAlignedDuration, AdvanceTimeStep"]}
{"id": "C17", "title": "Lifecycle state changes follow the published state graph", "statement": "A participant's published state changes only along the documented lifecycle graph, whatever user calls, system-state changes, handler outcomes and errors occur in whatever order.", "quantifier": "every sequence of user actions, handler results, remote events and barrier completions", "why_tests_cant": "History-dependent and re-entrant; the sequence space is unbounded.", "anchors": ["SilKit/source/services/orchestration/LifecycleStates.cpp", "SilKit/source/services/orchestration/LifecycleManagement.cpp", "SilKit/source/services/orchestration/LifecycleService.cpp"]}
{"id": "C18", "title": "Shutdown is final", "statement": "Once a participant has published the state Shutdown it publishes no further state and the future returned by StartLifecycle is completed with Shutdown.", "quantifier": "every sequence of events after and before reaching Shutdown, including aborts during pending handshakes", "why_tests_cant": "Only an abort racing with a pending all-participants barrier exposes a violation.", "anchors": ["SilKit/source/services/orchestration/LifecycleStates.cpp: ShutdownState, ServicesCreatedState", "SilKit/source/core/requests/procs/ParticipantReplies.cpp"]}
{"id": "C19", "title": "Lifecycle user handlers run in order and at most once", "statement": "The communication-ready, starting, stop and shutdown handlers of a participant are invoked at most once each and only in that order; the stop handler runs only if the participant had been running or paused.", "quantifier": "every sequence of lifecycle events", "why_tests_cant": "All event histories.", "anchors": ["SilKit/source/services/orchestration/LifecycleStates.cpp", "SilKit/source/services/orchestration/LifecycleService.cpp: Trigger*Handler"]}
{"id": "C20", "title": "The system state is a sound summary of the required participants' states", "statement": "The system state reported by the system monitor is Error (resp. Aborting) whenever some required participant is in Error (resp. Aborting), and it is a regular state S only if the participant states justify S; it does not depend on the states of participants that are not required.", "quantifier": "every set of required participants and every sequence of participant status updates and removals", "why_tests_cant": "All histories of status updates of an arbitrary number of participants.", "anchors": ["SilKit/source/services/orchestration/SystemStateTracker.cpp: ComputeSystemState"]}
{"id": "C21", "title": "Crash of a participant is reported as Error", "statement": "If a participant disconnects without having reached Shutdown, every system monitor reports state Error for it before reporting its disconnect, so that a required participant's crash drives the system state to Error.", "quantifier": "every history of status updates before the disconnect", "why_tests_cant": "All crash points.", "anchors": ["SilKit/source/services/orchestration/SystemMonitor.cpp: OnParticipantDisconnected", "SilKit/source/services/orchestration/SystemStateTracker.cpp"]}
{"id": "C22", "title": "All-participants barrier completes exactly once and only after everyone replied or left", "statement": "The handshake with which a participant makes sure that all others have processed its preceding messages invokes its completion exactly once, and only when every participant that was connected at its start has replied or has disconnected.", "quantifier": "every set of participants, every interleaving of replies, disconnects and unrelated or stale replies", "why_tests_cant": "All interleavings of replies and disconnects.", "anchors": ["SilKit/source/core/requests/procs/ParticipantReplies.cpp", "SilKit/source/core/requests/RequestReplyService.cpp"]}
{"id": "C23", "title": "Registering a service completes exactly when all peers acknowledged or vanished", "statement": "The call that registers a service on the network returns exactly once, after every peer that was connected when the subscriptions were sent either acknowledged (positively or negatively) each of them or disconnected.", "quantifier": "every set of peers and subscriptions, every order of acknowledges and disconnects", "why_tests_cant": "All orders of acknowledges and disconnects.", "anchors": ["SilKit/source/core/vasio/VAsioConnection.cpp: RemovePendingSubscription, RemovePeerFromPendingAcknowledges", "SilKit/source/core/vasio/VAsioConnection.hpp: RegisterSilKitMsgReceiver, RegisterSilKitServiceImpl"]}
{"id": "C24", "title": "Participant names are unique per simulation and every pair gets connected once", "statement": "The registry never admits two simultaneously connected participants with the same name in the same simulation; of any two participants admitted to the same simulation and connected at the same time, the later one is told about the earlier one and not vice versa, and participants of different simulations are never told about each other.", "quantifier": "every sequence of announcements and disconnects over any simulations and names", "why_tests_cant": "All histories of joins and leaves.", "anchors": ["SilKit/source/core/vasio/VAsioRegistry.cpp: OnParticipantAnnouncement, SendKnownParticipants, OnPeerShutdown"]}
{"id": "C25", "title": "A rejected duplicate cannot harm the participant it imitated", "statement": "When the registry rejects a connection because its participant name is already in use, the later disconnect of the rejected connection leaves the admitted participant reachable through the registry.", "quantifier": "every sequence of connects, rejected connects and disconnects", "why_tests_cant": "Requires a particular history (reject, disconnect, then relay).", "anchors": ["SilKit/source/core/vasio/VAsioConnection.cpp: ReceiveParticipantAnnouncement, AssociateParticipantNameAndPeer, RemovePeerFromConnection, FindPeerByName"]}
{"id": "C26", "title": "Joining a simulation reports success only after all known participants replied", "statement": "Connecting to the known participants is reported as successful exactly once and only if every known participant's handshake reply was received; it is reported as failed at most once and then never as successful.", "quantifier": "every set of known participants, every order of connection successes, failures, timeouts, remote-connect and proxy events", "why_tests_cant": "All interleavings over any number of participants.", "anchors": ["SilKit/source/core/vasio/ConnectKnownParticipants.cpp"]}
{"id": "C27", "title": "Late subscribers receive the last value exactly once, and every receiver gets every later value in order", "statement": "A subscriber that joins after a publisher has published receives the most recently published value (history length 1) first and then all later values in order, with none skipped or repeated; with history length 0 it receives only later values.", "quantifier": "every sequence of publications, subscriptions and disconnects on a link", "why_tests_cant": "All interleavings of publications and subscriptions.", "anchors": ["SilKit/source/core/vasio/VAsioTransmitter.hpp", "SilKit/source/core/vasio/SilKitLink.hpp"]}
{"id": "C28", "title": "CAN: every accepted frame is seen once by every other controller and acknowledged once", "statement": "On a CAN network without network simulation, a frame sent by a started controller is delivered once with direction RX to every other controller on the network, once with direction TX to the sender and acknowledged once as Transmitted with the sender's user context; a controller that is not started sends nothing.", "quantifier": "every number of controllers, every sequence of mode changes and frame transmissions", "why_tests_cant": "All sequences and controller sets.", "anchors": ["SilKit/source/services/can/CanController.cpp", "SilKit/source/services/can/SimBehaviorTrivial.cpp"]}
{"id": "C29", "title": "CAN: handlers see precisely the directions and transmit states they asked for", "statement": "A frame handler is called for a received frame exactly if the frame's direction is contained in the handler's direction mask; a transmit handler exactly if the status is contained in its status mask; state-change handlers are called exactly when the state changes; the user context is only visible on frames of the own controller.", "quantifier": "every set of handlers and masks, every incoming event", "why_tests_cant": "All handler sets, masks and histories.", "anchors": ["SilKit/source/services/can/CanController.cpp: AddFrameHandler, AddFrameTransmitHandler, ReceiveMsg"]}
{"id": "C30", "title": "Ethernet: exactly one acknowledge per frame, consistent with the link state", "statement": "Every frame sent on an Ethernet controller without network simulation is acknowledged exactly once; the acknowledge is Transmitted if and only if the frame was delivered to the other controllers, which happens exactly if the controller is active; frames shorter than 60 bytes are delivered zero-padded to 60 bytes and longer ones unchanged.", "quantifier": "every sequence of activate / deactivate / send calls, every frame content", "why_tests_cant": "All sequences and frame contents.", "anchors": ["SilKit/source/services/ethernet/EthController.cpp", "SilKit/source/services/ethernet/SimBehaviorTrivial.cpp"]}
{"id": "C31", "title": "LIN: a frame is transmitted only with exactly one response", "statement": "When the master of a LIN network without network simulation requests a frame, the frame is delivered as received-ok to the participating nodes if and only if exactly one node is configured to respond with a configured TX response; with none it is reported as no-response and with more than one as error.", "quantifier": "every number of nodes, every set of response configurations and every request", "why_tests_cant": "All node sets and configurations.", "anchors": ["SilKit/source/services/lin/LinController.cpp", "SilKit/source/services/lin/SimBehaviorTrivial.cpp"]}
{"id": "C32", "title": "LIN: invalid use is rejected before any effect", "statement": "Operations on a LIN controller that are not allowed in its current state (not initialised, wrong node type, sleeping, second initialisation, unconfigured identifier) raise an error and leave the controller and the network unchanged.", "quantifier": "every controller state and every API call", "why_tests_cant": "All states and call sequences.", "anchors": ["SilKit/source/services/lin/LinController.cpp: Init, InitDynamic, SendFrame, UpdateTxBuffer, SendDynamicResponse, ThrowIf*"]}
{"id": "C33", "title": "FlexRay: configurations out of range are always rejected", "statement": "Configure accepts a FlexRay controller configuration exactly if every cluster and node parameter lies in its specified range; TX buffer updates and reconfigurations are sent exactly for indices of configured buffers.", "quantifier": "every parameter assignment and every buffer index", "why_tests_cant": "The parameter space is huge.", "anchors": ["SilKit/source/services/flexray/Validation.cpp", "SilKit/source/services/flexray/FlexrayController.cpp: Configure, ReconfigureTxBuffer, UpdateTxBuffer"]}
{"id": "C34", "title": "RPC: every call is answered exactly once per server", "statement": "A call made while n matching servers are known leads to exactly n results for the caller (or one ServerNotReachable result for n = 0, or exactly one Timeout result instead of the missing ones when a timeout was given); results carry the caller's user context and never belong to another call.", "quantifier": "every number of clients and servers, every interleaving of calls, results, timeouts and disconnects", "why_tests_cant": "All interleavings.", "anchors": ["SilKit/source/services/rpc/RpcClient.cpp", "SilKit/source/services/rpc/RpcServer.cpp", "SilKit/source/services/rpc/RpcServerInternal.cpp"]}
{"id": "C35", "title": "Watchdog reports each threshold violation exactly once", "statement": "If a simulation step exceeds the soft response timeout the warning handler is invoked exactly once for this step, if it exceeds the hard timeout the timeout handler is invoked exactly once, and never for a step that completes in time.", "quantifier": "every sequence of step starts, step ends and watchdog polling times", "why_tests_cant": "All timings.", "anchors": ["SilKit/source/services/orchestration/WatchDog.cpp"]}
{"id": "C36", "title": "Registered handlers: unique identifiers, called once per event in registration order", "statement": "Adding a handler returns an identifier never handed out before; every event invokes every currently registered handler exactly once in registration order, and a removed handler is never invoked again.", "quantifier": "every sequence of add / remove / invoke operations, including handlers that add or remove handlers while being invoked", "why_tests_cant": "All histories, including re-entrant ones.", "anchors": ["SilKit/source/util/SynchronizedHandlers.hpp"]}
{"id": "C37", "title": "Connection URIs are parsed consistently", "statement": "Parsing a URI made from a host, a port and a legal simulation name yields exactly that host, port and simulation name; every accepted silkit/tcp URI has a non-empty host and a simulation name of legal characters without consecutive slashes.", "quantifier": "every string", "why_tests_cant": "All strings.", "anchors": ["SilKit/source/util/Uri.cpp: Uri::Parse, ValidateAndTransformSimulationName"]}
{"id": "C38", "title": "Messages stay on their link", "statement": "Whatever a service receives was sent by the participant named as its sender, on the network and with the kind of message for which the service was registered; bytes of one kind of message are never decoded as another kind.", "quantifier": "every history of registrations, connections, sendings and disconnects, for every kind of message and any number of networks", "why_tests_cant": "Needs all combinations of message kinds, network names and registration orders in several participants.", "anchors": ["SilKit/source/core/vasio/VAsioConnection.hpp: RegisterSilKitMsgReceiver", "SilKit/source/core/vasio/VAsioConnection.cpp: TryAddRemoteSubscriber, ReceiveRawSilKitMessage", "SilKit/source/core/vasio/SilKitLink.hpp", "SilKit/source/core/internal/traits/SilKitMsgSerdesName.hpp"]}
{"id": "C39", "title": "Handlers of Ethernet, LIN and FlexRay controllers see exactly the events they asked for", "statement": "From its registration until its removal, a handler of an Ethernet, LIN or FlexRay controller is called once for every event of its kind that the controller takes (a frame, an acknowledge, a change of the state or the bit rate, ...) and that its direction or status mask contains, in the order of the events; never before, never after its removal, and never for other events. Identifiers of handlers of one kind are never reused.", "quantifier": "every controller, every history of API calls and received messages with or without network simulation, every mask", "why_tests_cant": "Needs every interleaving of registrations and removals with events, for all 2^n masks and all kinds of events.", "anchors": ["SilKit/source/services/ethernet/EthController.cpp: AddFrameHandler, AddFrameTransmitHandler, ReceiveMsg, CallHandlers", "SilKit/source/services/lin/LinController.cpp", "SilKit/source/services/flexray/FlexrayController.cpp", "SilKit/source/util/SynchronizedHandlers.hpp"]}
{"id": "C40", "title": "An attempt to connect to a peer tries its addresses in order and reports once", "statement": "When a participant connects to another one, its addresses are tried one after the other: domain sockets first, then IPv4, IPv6 and named hosts, each group in the given order, and host names replaced by all their addresses with the port kept. The list is gone through as often as attempts are configured, and not further. Exactly one of success and failure is reported, once: success directly after the address that worked, failure only after every address was tried in every attempt, and nothing is tried afterwards. It ends after a bounded number of steps.", "quantifier": "every list of addresses, every result of name resolution, every number of attempts, every sequence of outcomes of the connectors", "why_tests_cant": "The outcomes of connectors form an unbounded tree of histories; re-entrant failures and exhausted lists are met only on some of them.", "anchors": ["SilKit/source/core/vasio/ConnectPeer.cpp: AsyncConnect, UpdateUris, TryNextUri, HandleFailure, OnAsyncConnectSuccess, OnAsyncConnectFailure", "SilKit/source/core/vasio/io/impl/AsioConnector.hpp"]}
{"id": "C41", "title": "A participant is told addresses of another one that can be used from where it is", "statement": "The registry tells a participant, for each acceptor of another one: the acceptor as it is if its address is not a catch-all address; otherwise the acceptor's port with the addresses that stand for it: the address of the other's connection to the registry if it has the family of the acceptor; if the other is on the host of the registry, also the address under which the asking participant reaches the registry if it has that family; and if both are on that host, the loopback address of that family. Nothing else is told, nothing twice and never a catch-all address. Domain sockets come first; loopback addresses come before others if the asking one is on the host of the registry, else after them.", "quantifier": "every list of acceptor URIs, every pair of connection addresses, every classification of hosts as addresses", "why_tests_cant": "The rule combines families, localities and catch-alls of three addresses; tests sample a few combinations.", "anchors": ["SilKit/source/core/vasio/TransformAcceptorUris.cpp: TransformAcceptorUris, GetUriInfo", "SilKit/source/core/vasio/VAsioRegistry.cpp: SendKnownParticipants"]}
{"id": "C42", "title": "Handlers given to the C++ API are called as given, through the C interface", "statement": "Adding a handler with the C++ API of CAN, Ethernet, LIN, FlexRay, the system monitor or the time synchronisation registers exactly this handler for its kind of event; an event of the kind calls all registered handlers, and no others, in the order in which they were added; after a handler has been removed it is not called again; for the events for which one handler is set, the one set last is called. None of this ever uses a handler that has been destroyed, unless a handler removes itself while it is being executed.", "quantifier": "every history of adding, removing and setting handlers and of events, with any interleaving between the steps inside the calls, including events during calls and handlers that add and remove handlers", "why_tests_cant": "The life time of the handler objects depends on the interleaving; a stale context is often not noticed by a test.", "anchors": ["SilKit/include/silkit/detail/impl/services: CanController, EthernetController, LinController, FlexrayController, SystemMonitor, TimeSyncService, LifecycleService, DataSubscriber, RpcClient, RpcServer", "SilKit/source/capi: CapiCan.cpp, CapiEthernet.cpp, CapiLin.cpp, CapiFlexray.cpp, CapiOrchestration.cpp, CapiRpc.cpp, CapiDataPubSub.cpp"]}
{"id": "C43", "title": "Values and errors pass the C interface unchanged", "statement": "What a user passes to a call of the C++ API is what the service behind the C interface is given, and the call is not refused by the interface; what a service emits is what the user's handler gets: every member of every frame, configuration, specification and event, for every value that the types can hold, with timestamps of 64 bits, texts without zero bytes and arrays below 2^32 elements. An exception of one of the API's classes thrown by a service reaches the user as the same class with its text; other exceptions arrive as SilKitError. The structures given to C handlers carry the identifier of their type; these identifiers are valid and pairwise different.", "quantifier": "all values of all events and calls, all exceptions, all contents of uninitialised memory", "why_tests_cant": "Some 150 members are copied one by one in both directions; a test with equal or zero values does not notice a swapped, forgotten or dangling one.", "anchors": ["SilKit/include/silkit/detail/impl/services/**", "SilKit/include/silkit/detail/impl/ThrowOnError.hpp", "SilKit/include/silkit/capi/InterfaceIdentifiers.h", "SilKit/source/capi/Capi*.cpp", "SilKit/source/capi/CapiImpl.hpp: CAPI_CATCH_EXCEPTIONS", "SilKit/source/capi/TypeConversion.hpp: assign"]}
{"id": "C44", "title": "PCAP traces can be read back", "statement": "A frame that was traced to a PCAP file by an Ethernet controller is read back by a replay with the same bytes and its time rounded down to microseconds, in the order of tracing. If the file is cut off at any byte, exactly the frames that are completely in the file are read, and a file without a complete header is refused. A pipe gets the bytes that a file would contain. Tracing does not make sending fail, other programs see the same times, and files of other versions are refused.", "quantifier": "all sequences of traced frames, all places at which the file can be cut off, all files that are opened", "why_tests_cant": "a crash can cut off the file at any byte, and the frames, times and lengths are arbitrary", "anchors": ["SilKit/source/tracing/PcapSink.cpp: PcapSink::Trace, Open", "SilKit/source/tracing/PcapReader.cpp: PcapReader::Seek, ReadGlobalHeader", "SilKit/source/tracing/Pcap.hpp"]}
{"id": "C45", "title": "A configured replay sends and delivers the recorded messages in their steps, and nothing else", "statement": "A controller, publisher or subscriber whose replay is configured for sending sends, in each simulation step, exactly the messages recorded as sent whose time (from the first step of the participant) lies within the step; what the user sends is not sent. If it is configured for receiving, its handlers get exactly the messages recorded as received, with the recorded times, and not those of the network. In a direction without replay it behaves as if there were no replay.", "quantifier": "all recorded messages, configurations, histories of creations, contiguous steps, sends and receptions", "why_tests_cant": "the order of messages and steps is arbitrary: boundaries of steps, several messages in one step, steps without messages, controllers created late", "anchors": ["SilKit/source/tracing/ReplayScheduler.cpp: ReplayMessages, ConfigureController", "SilKit/source/tracing/IReplayDataController.hpp: IsReplayEnabledFor", "SilKit/source/services/ethernet/EthController.cpp: SendFrame, ReceiveMsg, ReplayMessage", "SilKit/source/services/can/CanController.cpp", "SilKit/source/services/pubsub/DataPublisher.cpp", "SilKit/source/services/pubsub/DataSubscriberInternal.cpp"]}
{"id": "C46", "title": "Replaying a recording reproduces what was sent", "statement": "If the frames of an Ethernet controller are recorded in a PCAP file, then a simulation with the same steps in which a controller replays this file sees the same frames at the same times.", "quantifier": "all histories of the recorded and of the replaying participant with the same steps", "why_tests_cant": "recorder, file format, reader, scheduler and step boundaries must agree for all times and frames", "anchors": ["SilKit/source/tracing/PcapSink.cpp", "SilKit/source/tracing/PcapReader.cpp", "SilKit/source/tracing/ReplayScheduler.cpp", "SilKit/source/services/ethernet/EthController.cpp: SendFrameInternal, ReceiveMsgInternal, ReplaySend"]}
{"id": "C47", "title": "Includes of a configuration are found and read once", "statement": "When a configuration is loaded, the files that are included directly or indirectly are each read exactly once, also if they include each other in a circle; each is looked for in the working directory, then beside the including file and behind the search path hints; a file that is not found is an error.", "quantifier": "all file systems, working directories and graphs of includes", "why_tests_cant": "the graphs of includes, their depth and the places of the files are unbounded", "anchors": ["SilKit/source/config/ParticipantConfigurationFromXImpl.cpp: ProcessIncludes, AppendToSearchPaths, OpenFileWithSearchHints, GetConfigParentPath, ParticipantConfigurationFromFileImpl", "docs/configuration/includes-configuration.rst"]}
{"id": "C48", "title": "Included configurations are merged by the documented rules", "statement": "The configuration that is loaded from a file and its includes contains all named elements, sinks, hints and options that are written in the files, named elements with the same name are accepted only if all their properties match, properties of Middleware and HealthCheck are defined at most once, and everything else is refused with an error.", "quantifier": "all sets of files and everything that can be written in them", "why_tests_cant": "combinations of sections, values and orders of files are unbounded", "anchors": ["SilKit/source/config/ParticipantConfigurationFromXImpl.cpp: MergeConfigs, MergeNamedVector, PopulateCaches, CacheNonDefault, CacheLoggingSinks, MergeHealthCheck, MergeMetricsCache", "SilKit/source/config/ParticipantConfiguration.cpp: operator==", "docs/configuration/includes-configuration.rst"]}
{"id": "C49", "title": "Participants that use the registry as a proxy communicate as if they were connected directly", "statement": "Two participants that cannot connect directly exchange their messages through the registry. Each of them receives what the other one sent to it, completely, in order, once each and under the name of the sender, whatever third participants send, join or leave. A participant that leaves is reported once, after all of its messages, to every participant connected with it. When the registry is lost, every participant that was reachable through it is reported as gone exactly once, and nothing else happens.", "quantifier": "every number of participants and every interleaving of connects, sends, participants that leave, losses of the registry and reads of the registry and of the participants", "why_tests_cant": "A test runs one interleaving; which peer a relayed message belongs to and which peers are notified depend on the order in which announcements, messages and disconnects are relayed and read.", "anchors": ["SilKit/source/core/vasio/VAsioConnection.cpp: TryProxyConnect, ReceiveProxyMessage, OnPeerShutdown, SendProxyPeerShutdownNotification, AddPeer, RemovePeerFromConnection, ReceiveParticipantAnnouncement", "SilKit/source/core/vasio/VAsioProxyPeer.cpp: SendSilKitMsg, Shutdown"]}
{"id": "C50", "title": "A participant coupled to the wall clock runs neither ahead of it nor behind it", "statement": "With an AnimationFactor f configured, a participant never starts a step at virtual time t before the wall clock has advanced, since its first step (at t0), by f times (t - t0), and does not announce a step to the others before it is due. A participant whose steps take less than their animated duration starts each step when it is due. If a step takes longer, the participant catches up afterwards.", "quantifier": "all animation factors, step durations, numbers of steps, interleavings of the coupling thread with the I/O thread, delays of both, and all events from other participants and the lifecycle", "why_tests_cant": "the coupling thread, the I/O thread and the user's completion of asynchronous steps interleave freely, and the wall clock cannot be controlled in a test; being late or early shows only in particular interleavings and after many steps", "anchors": ["SilKit/source/services/orchestration/TimeSyncService.cpp: StartWallClockCouplingThread, IsTimeAdvancePossible, AdvanceTimeSimStepSync, AdvanceTimeSimStepAsync, CompleteSimulationStep, RequestNextStep", "docs/configuration/experimental-configuration.rst: AnimationFactor"]}
{"id": "C51", "title": "A network simulator sees exactly the controllers of its networks, and messages go between them and nowhere else", "statement": "After SimulateNetwork and Start, the user's ISimulatedNetwork is offered (ProvideSimulatedController) exactly the controllers that exist with the name and type of the network, each under its own, positive, never reused descriptor, and is told when one of them goes away (SimulatedControllerRemoved). The event producer is set once, before the first controller. A message that a controller sends calls exactly the object the user gave for it; what the user produces for a list of descriptors arrives, in this order, at exactly the controllers offered under them. A controller exchanges messages only with the simulator exactly while the simulator of its network is there, and is told only about status changes produced for it.", "quantifier": "all sequences of SimulateNetwork, Start, creation and removal of services by any participants, messages on networks and produced events, all answers of the user; all sequences of created and removed links at a controller; all sequences of produced status events", "why_tests_cant": "the offered set depends on the whole history of joining and leaving controllers before and after the start; tests use one network with controllers that stay", "anchors": ["SilKit/source/experimental/netsim/NetworkSimulatorInternal.cpp", "SilKit/source/experimental/netsim/SimulatedNetworkInternal.cpp", "SilKit/source/experimental/netsim/SimulatedNetworkRouter.cpp", "SilKit/source/experimental/netsim/eventproducers/CanEventProducer.cpp", "SilKit/include/silkit/experimental/netsim/INetworkSimulator.hpp", "SilKit/source/services/can/CanController.cpp:IsRelevantNetwork", "SilKit/source/services/can/SimBehaviorDetailed.cpp:AllowReception"]}
{"id": "C52", "title": "A coordinated simulation starts together, and starts", "statement": "A participant with a coordinated lifecycle calls its communication ready handler only after every required participant has reported CommunicationInitialized, and reports Running, calls its starting handler or starts its virtual time only after every required participant has reported ReadyToRun. If the required participants are not disturbed and their handlers do not fail, then as soon as all messages are delivered and nothing is left to do, all of them are running.", "quantifier": "all numbers of participants and all workflow configurations, all orders in which participants join, start and receive each other's states and the workflow configuration, all behaviour of the participants that are not required, all handlers set (synchronous, asynchronous, none) and both operation modes; for completion: all histories in which a required participant knows the workflow configuration before it starts its lifecycle", "why_tests_cant": "the claim is about every interleaving of the messages between all pairs of participants, each of which computes the system state on its own from what it has received so far", "anchors": ["SilKit/source/services/orchestration/LifecycleService.cpp: StartLifecycle, NewSystemState, ChangeParticipantState", "SilKit/source/services/orchestration/SystemStateTracker.cpp: UpdateParticipantStatus, UpdateRequiredParticipants, ComputeSystemState", "SilKit/source/services/orchestration/SystemMonitor.cpp: ReceiveMsg, OnParticipantDisconnected", "SilKit/source/services/orchestration/SystemController.cpp: SetWorkflowConfiguration"]}
{"id": "C53", "title": "A configuration survives being written and read again", "statement": "The text that ParticipantConfigurationToJson (or the YAML form) gives for a participant configuration can be read again with ParticipantConfigurationFromString and yields a configuration with the same settings. The same holds for the configuration of a registry.", "quantifier": "all participant configurations (all services, labels, FlexRay parameters, sinks, middleware and experimental settings, lists of any length, all texts and all numbers of the types) and all registry configurations", "why_tests_cant": "the claim is about every combination of settings; the tests compare a few fixed configurations, and operator== of the configuration ignores the settings that are lost", "anchors": ["SilKit/source/config/YamlWriter.cpp: Write (all overloads)", "SilKit/source/config/YamlWriter.hpp: WriteKeyValue, OptionalWrite, NonDefaultWrite, MakeMap", "SilKit/source/config/YamlReader.cpp: Read (all overloads)", "SilKit/source/config/YamlReader.hpp: OptionalRead, ReadKeyValue, OptionalRead_deprecated_alternative, GetChildSafe", "SilKit/source/config/ParticipantConfiguration.cpp: operator==(Metrics)", "SilKit/source/config/YamlParser.hpp: Serialize, SerializeAsJson, Deserialize"]}
{"id": "C54", "title": "Validation of configurations accepts exactly what the schema admits, and ignored elements are reported and have no effect", "statement": "A configuration text is accepted exactly if no map contains a key twice, every key is one of the schema at its place or has a name that does not occur in the schema, and lists of scalars occur only where the schema knows them. Every element that the schema does not know is reported with its name and place, as an error exactly if its name is reserved; such elements have no effect on the configuration that is read. Every configuration that the library itself writes is accepted without any message.", "quantifier": "all documents (trees of maps, lists and scalars of any size and depth), all configurations", "why_tests_cant": "The set of documents is infinite and the readers of thirty classes have to agree with a table of 313 paths; tests exercise some documents and a forgotten path or key shows only in the document that uses it.", "anchors": ["SilKit/source/config/YamlValidator.cpp: ValidateWithSchema, ValidatingVisitor, schemaPaths_v1", "SilKit/source/config/ParticipantConfigurationFromXImpl.cpp: Validate", "SilKit/source/config/YamlReader.cpp", "SilKit/source/config/YamlWriter.cpp"]}
{"id": "C55", "title": "A connection's byte stream delivers in order, completes every request and ends exactly once", "statement": "For every interleaving of the threads that use a byte stream with the I/O thread, every way in which the socket splits, delays or fails the transfers, and every point at which the stream is shut down: the listener is given exactly the bytes that the peer sent, in order, without gaps or repetitions; every write that is reported has been handed over in order; requests and completions take turns and a completion fits its request; a second request while one is open is refused; the end of the stream is reported at most once, only after a shutdown or a failure, always eventually after one, and nothing happens afterwards, so that the stream can be destroyed from then on.", "quantifier": "all sequences of read and write requests, shutdowns, arrivals of bytes, completions with any error code and number of bytes, posted calls and calls of the listener, in any interleaving", "why_tests_cant": "The unit tests use a mocked socket with a few fixed completions on one thread; whether the end is lost or reported twice depends on races between Shutdown, two pending operations and the calls of the listener.", "anchors": ["SilKit/source/core/vasio/io/impl/AsioGenericRawByteStream.cpp: AsyncReadSome, AsyncWriteSome, Shutdown, OnAsioAsyncReadSomeComplete, OnAsioAsyncWriteSomeComplete, HandleShutdownOrError", "SilKit/source/core/vasio/io/IRawByteStream.hpp: IRawByteStream, IRawByteStreamListener", "SilKit/source/core/vasio/VAsioPeer.cpp: OnAsyncReadSomeDone, OnAsyncWriteSomeDone, OnSocketShutdown"]}
{"id": "C56", "title": "Publish/subscribe from end to end: only matching publishers are heard, in order, and nothing published after matching is lost", "statement": "For every history of any number of participants that create publishers and subscribers, learn of each other's publishers in any order, connect, publish, and leave: a subscriber's handler is only called with values of publishers whose topic, media type and labels match; what it handles of one publisher is a contiguous part of what that publisher published, in order and without repetition; and once subscriber and publisher have found each other and the publisher's participant has handled the subscription, every value that is published later is handled, whatever else happens in between, as long as the connection holds. A late joiner first handles the last value.", "quantifier": "all histories of creating publishers and subscribers, discovery, connecting, announcing, publishing, delivering and closing connections, for any number of participants, topics, media types, labels and values", "why_tests_cant": "Discovery, the creation of the internal subscribers, the subscriptions between the participants and the values themselves travel separately and interleave arbitrarily; the integration tests only fix a few orders.", "anchors": ["SilKit/source/services/pubsub/DataSubscriber.cpp: RegisterServiceDiscovery, AddInternalSubscriber, RemoveInternalSubscriber", "SilKit/source/services/pubsub/DataPublisher.cpp: Publish", "SilKit/source/services/pubsub/DataSubscriberInternal.cpp: ReceiveMsg", "SilKit/source/core/participant/Participant_impl.hpp: CreateDataPublisher, CreateDataSubscriber, CreateDataSubscriberInternal", "SilKit/source/core/vasio/VAsioConnection.hpp: RegisterSilKitService, RegisterSilKitMsgReceiver, GetLinkByName"]}
{"id": "C57", "title": "A log message reaches exactly the sinks that admit it, locally and in other participants", "statement": "For every configuration of sinks and every history of log calls in any number of participants: each message appears exactly once in every local sink whose level and topic filters admit it, and in no other, in the order of the calls, followed by a flush iff the flush level is reached; it is published once per admitting remote sink once remote logging is set up; participants that log from remotes write the published messages in order and without loss to the sinks that admit them; received messages are never sent on; the level that can be queried tells exactly which levels are of interest to some sink; different participants use different files.", "quantifier": "all configurations (numbers, types, formats, levels and topic filters of sinks, flush levels), all orders of the sinks inside the logger, all interleavings of calls, transmissions and deliveries between any number of participants", "why_tests_cant": "The tests use a logger with one or two sinks and single messages; the filters, the early exit by the lowest level, the separate paths for local, remote and received messages and the asynchronous transmission combine arbitrarily.", "anchors": ["SilKit/source/services/logging/Logger.cpp: DispatchToSinks, ProcessLoggerMessage, LogReceivedMsg, GetLogLevel", "SilKit/source/services/logging/Logger.hpp: RemoteLogger, IsTopicDisabled", "SilKit/source/services/logging/LoggerMessage.hpp: Dispatch", "SilKit/source/core/participant/Participant_impl.hpp: SetupRemoteLogging", "SilKit/source/util/StringHelpers.cpp: PrintableString"]}
{"id": "C58", "title": "A line of a JSON log is one JSON object that carries exactly the message", "statement": "For every message, every line written to a JSON sink is a single line whose text is a valid JSON object, and its members are the time stamp, the name of the participant, the level, the topic (if any), the text and the key-value pairs exactly as logged.", "quantifier": "all names, texts, topics, levels, times and key-value pairs", "why_tests_cant": "Escaping has to be right for every text; the tests use a few fixed strings.", "anchors": ["SilKit/source/services/logging/Logger.cpp: KeyValuesToJsonString, formatter<JsonLogMessage>, the pattern of JSON sinks", "SilKit/source/util/StringHelpers.cpp: EscapeString"]}
{"id": "C59", "title": "Services are created with the configured settings, under unique names, or not at all", "statement": "When a user creates a CAN, Ethernet, FlexRay or LIN controller, a data publisher or subscriber, or an RPC client or server, the service has the network, topic or function name, labels and history that the participant configuration sets for its name, and the values passed by the user where the configuration sets nothing; differences are reported. The creation fails exactly if the name is empty or used by another service of the kind, the history is longer than one, or a configured replay has no source. A creation that fails leaves no service behind. Identifiers are unique, every service is announced to others exactly once and in the order of creation, and later creations never change it. The name and the registry of the participant itself follow the same rule. The lifecycle service and the system monitor can be created once.", "quantifier": "for all configurations, all names and parameters, and all histories of creations (successful or not) of a participant", "why_tests_cant": "tests use a handful of configurations and one creation each; the precedence rule and uniqueness have to hold for every combination of entries and after every history, including failed creations", "anchors": ["SilKit/source/core/participant/ValidateAndSanitizeConfig.cpp: ValidateAndSanitizeConfig", "SilKit/source/core/participant/Participant_impl.hpp: GetConfigByControllerName, UpdateOptionalConfigValue, CreateCanController, CreateDataPublisher, CreateRpcServer, CreateController, AddTraceSinksToSourceInternal, CreateLifecycleService, CreateSystemMonitor", "SilKit/include/silkit/services/pubsub/PubSubSpec.hpp: AddLabel", "SilKit/source/tracing/ReplayScheduler.cpp: ConfigureController"]}
{"id": "C60", "title": "Every change of a metric is reported by the next submission, and reaches every collector once", "statement": "Whatever counters, statistics, string lists and attributes a participant changes in whatever order: each submission reports exactly the metrics that were changed since the previous one, each once, with its present value and the time of its last change, so that after a submission the last report on every metric is up to date. Counters add up, lists and attributes hold what was put into them, statistics have the minimum, maximum and mean of the values. Different names are different metrics, and a metric cannot be requested with another kind. The sinks get all data of every origin in order, also data that come before the sinks exist. A collector gets every report of other participants once, in order, and no report is passed on in circles.", "quantifier": "for all histories of requests, changes and submissions, all interleavings of threads, all values and names, all configurations of sinks and collectors in a network of participants", "why_tests_cant": "tests submit a few changes in one thread; which changes are reported depends on all earlier submissions and on the interleaving, and loops or losses in a network only show for particular histories", "anchors": ["SilKit/source/services/metrics/MetricsManager.cpp: SubmitUpdates, GetOrCreateMetric, CounterMetric, StatisticMetric, StringListMetric, AttributeMetric", "SilKit/source/services/metrics/MetricsProcessor.cpp: SetSinks, Process, OnMetricsUpdate", "SilKit/source/services/metrics/MetricsRemoteSink.cpp: Process", "SilKit/source/services/metrics/MetricsReceiver.cpp: ReceiveMsg", "SilKit/source/services/metrics/MetricsDatatypes.cpp: ToString"]}
{"id": "C61", "title": "Every line of the metrics file is a JSON object that stands for the report", "statement": "For every report, the line in the file of a JSON metrics sink is a JSON object with the time stamp, the name of the participant, the name of the metric, its kind and its value in the documented encoding; all texts are read back as they were, and a line can be read in one way only.", "quantifier": "for all participant names, metric names, values of all kinds and time stamps", "why_tests_cant": "escaping errors show only for particular characters and positions; tests try a few strings", "anchors": ["SilKit/source/services/metrics/MetricsJsonSink.cpp: Process", "SilKit/source/services/metrics/MetricsManager.cpp: FormatValue", "SilKit/source/util/StringHelpers.cpp: EscapedJsonString"]}
{"id": "C62", "title": "The dashboard gets a faithful record of every simulation", "statement": "Of every simulation a registry with a dashboard reports: the participants that connect, every change of their states and of the system state, every controller and network created and all metrics, each once and in its order, under an id that was created for this simulation; its end once, when the last participant has left, and nothing after it. This does not depend on how the events are put together into updates. If the registry is ended, what has been reported is a beginning of the whole.", "quantifier": "for all histories of connections, departures, states, services and metrics of any number of simulations, all ways in which the worker takes events from the queue, all answers of the dashboard and all points at which the registry is ended", "why_tests_cant": "how events are put together depends on the scheduling of the worker and the duration of requests, and records of simulations only go wrong for certain orders of departures and states", "anchors": ["SilKit/source/dashboard/DashboardInstance.cpp: DashboardInstance, RunDashboardWorker, OnParticipantConnected, OnParticipantDisconnected, OnParticipantStatusUpdate", "SilKit/source/dashboard/LockedQueue.hpp: DequeueAllInto", "SilKit/source/dashboard/service/DashboardRestClient.cpp: OnBulkUpdate, OnSimulationStart", "SilKit/source/dashboard/service/SilKitToOatppMapper.cpp: CreateBulkSimulationDto, ProcessServiceDiscovery"]}
{"id": "C63", "title": "A command line means what is written on it, or is rejected", "statement": "The registry, the monitor and the system controller accept a command line exactly if it is a sequence of declared options with a value (long or short form, value after '=' or as the next argument), declared flags, and words for which there is a place. Then every option has the last value given for it, and its default if there is none or the value is empty; a flag is set exactly if it is given; and the words are in the declared places in their order, the rest in the list. If a command line is rejected, an argument of it is named.", "quantifier": "for all command lines, of any length, and all sensible declarations of arguments; the declarations of the three utilities are shown to be sensible", "why_tests_cant": "options, flags and words can be mixed, repeated and shortened in infinitely many ways; what is read depends on all arguments before", "anchors": ["SilKit/source/util/CommandlineParser.hpp: ParseArguments, Get, Value, HasValue", "Utilities/SilKitRegistry/Registry.cpp: main", "Utilities/SilKitMonitor/PassiveSystemMonitor.cpp: main", "Utilities/SilKitSystemController/SystemController.cpp: main"]}
{"id": "C64", "title": "A participant finds the registry whose URI it was given", "statement": "The URI that a registry returns when it has started leads every participant to this registry, with and without domain sockets, from all working directories and whatever the name of the simulation, for as long as it runs and whatever other registries are started, end or crash. All participants whose URIs have the same host and port are connected to the same registry.", "quantifier": "for all histories of registries that are started, stopped and crash on a machine, all URIs, ports given by the operating system, refusals of sockets, working directories and settings of domain sockets, and all results of name resolution", "why_tests_cant": "whether participants meet depends on which registries ran on the machine before, on leftover socket files and on the directories of all processes", "anchors": ["SilKit/source/core/vasio/VAsioRegistry.cpp: StartListening", "SilKit/source/core/vasio/VAsioConnection.cpp: makeLocalEndpoint, AcceptLocalConnections, AcceptTcpConnectionsOn, ConnectParticipantToRegistryAndStartIoWorker", "SilKit/source/core/vasio/ConnectPeer.cpp: UpdateUris", "SilKit/source/core/vasio/io/impl/AsioIoContext.cpp: Resolve, MakeTcpAcceptor, MakeTcpConnector", "SilKit/source/core/vasio/io/impl/AsioCleanupEndpoint.cpp: CleanupEndpoint"]}
{"id": "C65", "title": "The monitor's handlers tell who is there, and the system controller starts when all are", "statement": "The connected handler of the system monitor is called once for every participant that is there when it is set and once for every participant that comes later, the disconnected handler once for every participant that goes; IsParticipantConnected agrees with them. The system controller sets the workflow configuration exactly once, to the required participants and itself, as soon as all required participants are there at the same time.", "quantifier": "for all histories of participants that come and go before, while and after the monitor is created and its handlers are set, all interleavings of the user's thread and the I/O thread, and all lists of required names", "why_tests_cant": "the outcome depends on where between the steps of CreateSystemMonitor and the setters a participant comes or goes, on two threads", "anchors": ["SilKit/source/core/participant/Participant_impl.hpp: GetSystemMonitor", "SilKit/source/services/orchestration/SystemMonitor.cpp: SetParticipantConnectedHandler, SetParticipantDisconnectedHandler, IsParticipantConnected, OnParticipantConnected, OnParticipantDisconnected", "SilKit/source/core/vasio/VAsioConnection.cpp: ReceiveParticipantAnnouncement, HandleConnectedPeer, AssociateParticipantNameAndPeer, RegisterPeerShutdownCallback, OnPeerShutdown, RemovePeerFromConnection, GetConnectedParticipantsNames", "Utilities/SilKitSystemController/SystemController.cpp: SilKitController, main"]}
{"id": "C66", "title": "Ctrl-C ends a simulation in bounded time", "statement": "A signal to the system controller is handled once: a simulation that is running or paused is stopped, one that cannot be stopped is aborted. If it does not end, it is aborted after 15 s, an error is reported after 30 s at the latest, and the utility ends. The option --log means the level that it names.", "quantifier": "for all system states at the time of the signal and changes of them while the handler decides, all times at which the simulation ends or does not end, all interleavings of signals, the worker and the removal of the handler, and all arguments of --log", "why_tests_cant": "the reaction depends on the state at each of several looks at it and on timing in the range of half a minute", "anchors": ["Utilities/SilKitSystemController/SystemController.cpp: StopOrAbort, WaitForFinalStateWithRetries, WaitForFinalState, RegisterSignalHandler, IsValidLogLevel, main", "SilKit/source/util/SignalHandler.cpp: SignalMonitor, RegisterSignalHandler, ShutdownSignalHandler"]}
{"id": "C67", "title": "The time of a participant and the calls of its time handlers", "statement": "With synchronized time, every registered time handler (which implements the timeouts of RPC calls and the replay of traces) is called exactly once for every simulation step, with the time and the duration of the step and for nothing else, and messages carry the time of the last step. Without synchronized time, every registered handler is called again and again with the time of the computer and the time that has passed, and messages carry no time. Adding and removing handlers is possible at any time, from any thread, also from a handler, and does not block.", "quantifier": "for all histories of adding and removing handlers, of configuring the kind of time and of simulation steps, and all schedules of the timer threads", "why_tests_cant": "the failures need a timer tick in a window of microseconds, or an order of calls that no test uses", "anchors": ["SilKit/source/services/orchestration/TimeProvider.cpp: ConfigureTimeProvider, OnTick, NoSyncProvider, WallclockProvider, SynchronizedVirtualTimeProvider", "SilKit/source/services/orchestration/TimeProvider.hpp: AddNextSimStepHandler, RemoveNextSimStepHandler, SetTime, Now", "SilKit/source/util/Timer.hpp: Timer", "SilKit/source/services/rpc/RpcClient.cpp: TriggerCall, TimeHandler", "SilKit/source/services/orchestration/LifecycleService.cpp: StartLifecycle"]}
{"id": "C68", "title": "Two participants get connected once, in a way both have declared", "statement": "A participant that joins and cannot connect to a known participant asks it to connect back only if both have declared that, and uses the registry as a proxy only if both have declared that; it gives up only when no such way is left. Every schedule of messages, failures and timeouts ends, with the participant knowing that it is connected or that it has to give up; participants that may be relayed always get connected. There is never more than one connection between the two.", "quantifier": "all capabilities of both participants and the registry; all schedules of message deliveries on all queues, results of attempts, timer expirations and a crash of the peer", "why_tests_cant": "the result depends on the interleaving of the timer, four queues through the registry and two independent connection attempts; tests try a handful of orders and do not expire the timer between two messages", "anchors": ["SilKit/source/core/vasio/ConnectKnownParticipants.cpp: HandleEvent, OnConnectPeerFailure, OnTimerExpired", "SilKit/source/core/vasio/RemoteConnectionManager.cpp: StartConnectingTo", "SilKit/source/core/vasio/VAsioConnection.cpp: TryRemoteConnectRequest, TryProxyConnect, ReceiveRemoteParticipantConnectRequest"]}
{"id": "C69", "title": "Participants and services with different names are told apart", "statement": "Names are all a user gives: messages on a link reach exactly the connected participants that have subscribed, the departure of one participant has no effect on another, every controller's configuration is known under its own participant, every service with its own names is known to the service discovery, no participant is taken for the registry, and log files are not shared - whatever the names are.", "quantifier": "all names (byte strings) of participants, networks and services; all histories of participants that connect, subscribe and leave; all sequences of LIN configurations", "why_tests_cant": "the identifiers are 64-bit numbers and texts computed from arbitrary names; tests use a handful of names that happen not to collide", "anchors": ["SilKit/source/util/Hash.hpp: Hash", "SilKit/source/core/internal/ServiceDescriptor.hpp: operator==, to_string, to_endpointAddress", "SilKit/source/core/vasio/VAsioTransmitter.hpp: RemoveRemoteReceiver", "SilKit/source/services/lin/LinController.cpp: GetLinNode, ReceiveMsg", "SilKit/source/util/StringHelpers.cpp: PrintableString"]}
{"id": "C70", "title": "The files, settings and exit of sil-kit-registry can be relied on by scripts", "statement": "Whoever reads the file named by --generate-configuration finds what was there before or the whole configuration with the URI of a registry that is listening, at any time and wherever processes are killed; the registry is ready from then on until it is ended. The status file tells the truth: 'running' only if one can connect and the configuration has been generated; it is gone after the end. A signal ends the registry with exit code 0, the other exit codes tell the reason, nothing that participants do while it ends is dangerous, and the registry configuration overrides the command line.", "quantifier": "any number of registries with all options, generating the same file; all interleavings with participants, signals, kills and users that change files; all failures of file operations, all pieces in which files are written; all command lines and registry configurations", "why_tests_cant": "the claims are about every instant between two system calls, every crash point and every interleaving of several processes; tests see a few instants of one process", "anchors": ["Utilities/SilKitRegistry/Registry.cpp: main, StartRegistry, StatusFile, OverrideFromRegistryConfiguration, SanitizeConfiguration", "Utilities/SilKitRegistry/Registry.hpp: RegistryInstance", "SilKit/source/util/SignalHandler.cpp: SignalMonitor, RegisterSignalHandler", "SilKit/source/core/participant/ValidateAndSanitizeConfig.cpp"]}
{"id": "C71", "title": "Waiting for the end of a lifecycle through the C interface tells the final state of this lifecycle", "statement": "A wait for a lifecycle that reports success reports the state in which this participant's lifecycle has ended; it fails only if the lifecycle has not been started or has been waited for already; once the lifecycle has ended, whoever waits for it is told, whatever other participants of the process do; the future returned by the C++ API's StartLifecycle gets the final state. Nothing about it is undefined behaviour.", "quantifier": "any number of participants and threads of one process, every interleaving of creating, starting, waiting, ending and destroying, with addresses that are used again", "why_tests_cant": "depends on interleavings of the steps inside the calls and on where the allocator puts new objects", "anchors": ["SilKit/source/capi/CapiOrchestration.cpp: LifecycleFutureMap, SilKit_LifecycleService_StartLifecycle, SilKit_LifecycleService_WaitForLifecycleToComplete", "SilKit/include/silkit/detail/impl/services/orchestration/LifecycleService.hpp: StartLifecycle", "SilKit/source/services/orchestration/LifecycleService.cpp: StartLifecycle, SetFinalStatePromise"]}
{"id": "C72", "title": "Arguments of every C function are checked before anything is done", "statement": "For every function of the C interface that returns a code, and all arguments: a null pointer argument, or a struct without an identifier of the library, is refused with BADPARAMETER and a text, before the library is called and without storing results or handlers; arguments as the headers ask for are never refused and reach the library, whose exceptions become codes; success is only reported if the library has returned and all results are stored; failure stores nothing; no arguments with null pointers crash the caller.", "quantifier": "all 146 functions; all combinations of null pointers, identifiers, lengths and other numbers in the arguments and the structs behind them; all outcomes of the library", "why_tests_cant": "146 functions with up to six arguments each, nested structs and arrays: the combinations are unbounded, and an unchecked pointer only shows when that very pointer is null", "anchors": ["SilKit/source/capi/CapiImpl.hpp:ASSERT_VALID_POINTER_PARAMETER, ASSERT_VALID_STRUCT_HEADER, CAPI_CATCH_EXCEPTIONS", "SilKit/source/capi/Capi*.cpp", "SilKit/include/silkit/capi/InterfaceIdentifiers.h:SK_ID_IS_VALID", "SilKit/include/silkit/capi/*.h"]}
{"id": "C73", "title": "Values between controllers and a network simulator are kept", "statement": "Every message of a controller on a simulated network reaches the simulated controller of the user with exactly the fields the controller has given, and every event the simulator produces is sent to exactly the given receivers with the fields of the event (status messages with the latest value of the other field), although both pass through the structures of the C interface; no message makes the library leave its arrays; each network is simulated once at most, those given before the start are simulated, and all other calls are refused.", "quantifier": "all 15 messages and 17 events with all values of their fields (payloads, frame responses and buffer configurations of any length), all histories of produced events, all histories of SimulateNetwork and Start, all contents of uninitialised memory", "why_tests_cant": "the values have unbounded arrays and pointers between them, fields are lost only for particular values, and the status messages depend on the whole history of events", "anchors": ["SilKit/source/experimental/netsim/SimulatedNetworkRouter.cpp:ReceiveMsg", "SilKit/source/capi/CapiNetworkSimulator.cpp", "SilKit/include/silkit/detail/impl/HourglassConversions.hpp", "SilKit/include/silkit/detail/impl/netsim/EventProducer.hpp", "SilKit/include/silkit/detail/impl/netsim/NetworkSimulator.hpp:SimulateNetwork", "SilKit/source/experimental/netsim/eventproducers", "SilKit/source/experimental/netsim/NetworkSimulatorInternal.cpp:SimulateNetwork"]}
{"id": "C74", "title": "Messages to one participant reach that participant only", "statement": "A message that a controller sends to the network simulator, or that the simulator sends to one controller, arrives at that participant only, exactly once and in the order of all messages of the sender; calls are carried out in the order they were made; a target without an accepted subscription is refused, and the caller is told.", "quantifier": "all histories of calls with and without targets, subscriptions, disconnections, steps of I/O threads and deliveries, between any number of participants, for message types with and without history", "why_tests_cant": "the order of the calls, the I/O threads, the subscriptions and the disconnections is unbounded, and what is repeated to a late subscriber depends on the whole history", "anchors": ["SilKit/source/core/vasio/SilKitLink.hpp:DispatchSilKitMessageToTarget", "SilKit/source/core/vasio/VAsioTransmitter.hpp:SendMessageToTarget,AddRemoteReceiver,MessageHistory", "SilKit/source/core/vasio/VAsioConnection.hpp:SendMsg,SendMsgToTargetImpl,ExecuteOnIoThread"]}
{"id": "C75", "title": "Only matching extensions are loaded, the first in the documented order", "statement": "An extension comes from a shared library with exactly the version and build of this SIL Kit. The directories of the configuration (with ENV: for environment variables), the environment variable SILKIT_EXTENSION_PATH, the working directory and the directory of the program are searched in this order, and the first matching library is loaded; the request fails with an exception if there is none, and only then. Later requests get the same extension, and libraries that are not used are closed.", "quantifier": "all file systems, environments, contents of libraries, names, search hints of any number and length, and histories of requests with a file system that changes between them", "why_tests_cant": "the order and the outcome depend on arbitrary combinations of present, unreadable, foreign and incomplete libraries in any number of directories, and on earlier requests", "anchors": ["SilKit/source/extensions/SilKitExtensions.cpp:LoadExtension,FindLibrary,VerifyExtension", "SilKit/source/extensions/detail/LoadExtension_posix.cpp", "SilKit/source/extensions/SilKitExtensionImpl/DllCache.hpp", "SilKit/source/extensions/SilKitExtensionImpl/SilKitExtensionLoader.hpp"]}
{"id": "C76", "title": "Replaying a LIN recording is sending its frames", "statement": "A LIN master with a replay configuration does what it would do if its user sent the recorded frames: each replayed frame has the effect of SendFrame, a recorded go-to-sleep frame that of GoToSleep, whatever else happens in between. In the configured direction only recorded frames are sent, with the recorded data, up to the end of the recording; what the user sends is ignored. Slaves and controllers without a valid configuration replay nothing.", "quantifier": "all states of the controller, recorded frames in any number, configurations, and histories of calls, received messages and replayed frames", "why_tests_cant": "recordings and what happens between their frames are arbitrary: sleep, other nodes' responses, the user's calls, and frames that no node answers", "anchors": ["SilKit/source/services/lin/LinController.cpp:ReplayMessage,SendFrame,SetFrameResponse,GoToSleep", "SilKit/source/tracing/Tracing.cpp:IsValidReplayConfig", "SilKit/source/tracing/IReplayDataController.hpp:IsReplayEnabledFor"]}
{"id": "C77", "title": "Each controller replays the recorded channel that belongs to it", "statement": "With a trace source, a controller replays the first channel of its type that was recorded for its network, its participant and its name, or, if the user selects a channel by its attributes, the only one with these attributes; if a selection fits none or several, the creation of the controller fails with a configuration error. Ethernet controllers replay the frames of PCAP files. Without a channel for it, a controller replays nothing; other channels of the file do not matter.", "quantifier": "all files with any number of channels, types and attributes, all names, configurations and selections", "why_tests_cant": "recordings come from other tools and contain arbitrary channels in any order; whether they disturb the choice depends on all of them", "anchors": ["SilKit/source/tracing/ReplayScheduler.cpp:FindReplayChannel,MatchSilKitChannel,MatchMdfChannel,ConfigureController,splitString", "SilKit/source/tracing/Tracing.cpp:CreateReplayFiles,IsValidReplayConfig"]}
{"id": "C78", "title": "Dynamic LIN responses reach everybody, and every header is reported", "statement": "If controllers of a LIN network are initialized for dynamic responses, then a header that the master sends is reported once to each of them, and to nobody as a frame. A response that one of them gives is reported as transmitted by it, and received once, unchanged, by all other dynamic controllers that are awake and by the others as they are configured. Several responses to one header, and missing ones, are reported as errors. A response without a header, before the initialization or at a controller that is not dynamic is rejected.", "quantifier": "all networks with any number of controllers, dynamic or not, all histories of calls and deliveries, identifiers, frames and responders", "why_tests_cant": "who is taken for a responder depends on all responses ever given in the network, and on the order in which they arrived", "anchors": ["SilKit/source/services/lin/LinController.cpp:InitDynamic,SendDynamicResponse,ThrowIfNotDynamic,HasDynamicNode,GetResponse,ReceiveMsg", "SilKit/source/services/lin/SimBehaviorTrivial.cpp:SendMsg,ProcessFrameHeaderRequest,CalcFrameStatus", "SilKit/include/silkit/experimental/services/lin/LinControllerExtensions.hpp:InitDynamic,SendDynamicResponse,AddFrameHeaderHandler"]}
{"id": "C79", "title": "Every announcement gets a true answer, whatever version it has", "statement": "A participant or registry that is announced to decodes the announcement only if it understands its version. If it accepts it, it learns name, addresses and simulation exactly, and the announcer learns exactly the known participants and the subscriptions, and that the handshake is complete. If it rejects it - because of its version, its simulation name or its name - the announcer learns that and why. This holds for all versions that are said to be supported, on new connections and on others.", "quantifier": "all versions, all announcers and receivers, all connections in every state, all names, addresses, lists of participants, subscriptions and texts", "why_tests_cant": "the format of each message depends on the versions both ends have put into the connection so far; the tests use connections that already have the current version", "anchors": ["SilKit/source/core/vasio/VAsioConnection.cpp:SendParticipantAnnouncement,ReceiveParticipantAnnouncement,SendParticipantAnnouncementReply,SendFailedParticipantAnnouncementReply,ReceiveParticipantAnnouncementReply,ReceiveKnownParticpants,ReceiveRegistryMessage", "SilKit/source/core/vasio/SerializedMessage.cpp:ReadNetworkHeaders", "SilKit/source/core/vasio/VAsioSerdes.cpp:PeekRegistryMessageHeader", "SilKit/source/core/vasio/VAsioRegistry.cpp:OnParticipantAnnouncement,SendKnownParticipants"]}
{"id": "C80", "title": "Who steps dynamically is as documented", "statement": "With DynamicSimulationStep set to true, a participant steps dynamically and advertises the request to all others; with false it never does, whatever others request; without the setting it does if and only if another participant that is present has advertised the request, and says so once in its log.", "quantifier": "all settings, all histories of participants that appear and leave, all interleavings of the user's thread and the I/O thread", "why_tests_cant": "participants appear on the I/O thread while the user's thread makes the setting; which of them writes last depends on the schedule", "anchors": ["SilKit/source/services/orchestration/TimeSyncService.cpp:ConfigureDynamicStepSize,RecomputeDynamicStepEnabled,InitializeTimeSyncPolicy", "SilKit/source/services/orchestration/LifecycleService.cpp:CreateTimeSyncService", "SilKit/source/services/orchestration/TimeConfiguration.cpp:SetDynamicStepSizeEnabled", "docs/configuration/experimental-configuration.rst"]}
{"id": "C81", "title": "Autonomous participants with virtual time do not run with those that do not support them", "statement": "A participant with an autonomous lifecycle and virtual time that has begun to run aborts the simulation if a synchronized participant is there that does not support such participants, whenever this one is discovered. Nobody aborts the simulation for another reason of this kind: not participants with a coordinated lifecycle, not those that do not synchronize their time, not because of participants that do support it.", "quantifier": "all participants with and without the capability, all orders in which they are discovered and removed, all interleavings with the calls of the user", "why_tests_cant": "discoveries are handled while the user is still creating the lifecycle and the time synchronization; a check that comes too early must be made up for later", "anchors": ["SilKit/source/services/orchestration/TimeSyncService.cpp:TimeSyncService,StartTime,ParticipantHasAutonomousSynchronousCapability", "SilKit/source/services/orchestration/LifecycleService.cpp:CreateTimeSyncService,StartLifecycle", "SilKit/source/core/vasio/VAsioConnection.cpp:ParticipantHasCapability"]}
