{"id": "C01", "title": "Bit reads follow the stream's bit order", "statement": "BitStreamReader.bits(n) called at any position returns the unsigned number spelled by the next n bits of the buffer, most significant bit first, and moves the position by exactly n bits, as long as the n bits lie inside one byte; bits read twice without advancing are equal.", "quantifier": "every buffer, every start position, every size 0..8 that does not cross a byte boundary", "why_tests_cant": "a test reads a handful of offsets in a handful of buffers; the claim is about all of them", "anchors": ["pyzwave/types.py:BitStreamReader.bits", "pyzwave/types.py:BitStreamReader.bit"]}
{"id": "C02", "title": "Byte reads never return short data", "statement": "BitStreamReader.value(n) returns exactly the next n bytes and moves n bytes forward, and if fewer than n bytes are left it raises EOFError; byte() and bits() raise EOFError in the same situation; peeking never moves the position.", "quantifier": "every buffer, position and requested length", "why_tests_cant": "needs every length/position combination, including those at and past the end", "anchors": ["pyzwave/types.py:BitStreamReader.value", "pyzwave/types.py:BitStreamReader.byte", "pyzwave/types.py:BitStreamReader.peekValue"]}
{"id": "C03", "title": "Bit writes append exactly the written bits", "statement": "Writing in-range values with addBits so that no value crosses a byte boundary produces a byte string whose bits are the concatenation of the written values, most significant bit first, zero padded to a whole byte; an earlier field is never altered by a later one.", "quantifier": "every sequence of addBits/addBytes calls of any length with in-range values", "why_tests_cant": "interactions between fields depend on the whole preceding sequence", "anchors": ["pyzwave/types.py:BitStreamWriter.addBits", "pyzwave/types.py:BitStreamWriter.addBytes"]}
{"id": "C04", "title": "Whole-byte integers are never truncated", "statement": "Serialising an integer attribute (uint8/16/32, HomeID, int24) either writes exactly its big-endian two's complement representation of the declared size or raises OverflowError; it raises precisely for the values outside the type's range.", "quantifier": "every integer, for every declared size and signedness", "why_tests_cant": "the input space is infinite and the interesting points are the two boundaries of each type", "anchors": ["pyzwave/types.py:int_t.serialize", "pyzwave/types.py:BitStreamWriter.addBytes"]}
{"id": "C05", "title": "Integer attributes round-trip", "statement": "Deserialising what was serialised gives the same integer back, for each whole-byte integer type and each sub-byte type, and deserialising consumes exactly the bytes (bits) written.", "quantifier": "every in-range integer and every integer type of the library, at any position in a stream", "why_tests_cant": "65536 to 2^32 values per type", "anchors": ["pyzwave/types.py:int_t", "pyzwave/types.py:uint3_t", "pyzwave/types.py:uint4_t", "pyzwave/types.py:uint5_t", "pyzwave/types.py:uint7_t", "pyzwave/types.py:BitsBase"]}
{"id": "C06", "title": "Messages round-trip through the wire format", "statement": "For every registered message type whose attributes can all be encoded and decoded symmetrically, and every assignment of in-range values to its attributes, compose() succeeds and Message.decode() of the result is a message of the same type in which every non-reserved attribute reads back the value that was set.", "quantifier": "every symmetric registered message type, every in-range assignment of its attributes (including nested messages and variable-length payloads of any size)", "why_tests_cant": "unit tests use a few literal messages; payload length and nesting are unbounded", "anchors": ["pyzwave/message.py:Message.compose", "pyzwave/message.py:Message.decode", "pyzwave/util.py:AttributesMixin.parseAttributes"]}
{"id": "C07", "title": "Wire layout of every composable message", "statement": "compose() of each composable message type emits the command class byte, the command byte and then each attribute at its documented bit offset and width, in declaration order, for all in-range attribute values.", "quantifier": "every composable registered message type and every in-range assignment", "why_tests_cant": "a golden-bytes test fixes one assignment per message", "anchors": ["pyzwave/message.py:Message.compose", "pyzwave/commandclass/*.py"]}
{"id": "C08", "title": "Message ids are unique and decode to their own type", "statement": "No two registered message types share a (command class, command) pair; decoding bytes that start with a registered pair gives a message of exactly that type (or raises), decoding any other pair gives an unknown message that still reports that command class and command, and decoding fewer than two bytes gives the unknown message 0.", "quantifier": "every registered type and every byte string", "why_tests_cant": "a clash silently shadows a type; tests only look up the types they know", "anchors": ["pyzwave/commandclass/__init__.py:CommandClassMessageCollection", "pyzwave/message.py:Message.deserialize", "pyzwave/message.py:UnknownMessage"]}
{"id": "C09", "title": "Decoding always terminates", "statement": "Message.decode() of any byte string returns a message or raises an exception after a number of steps bounded by the input; no input makes one of the parser loops run forever, and the nesting depth of the recursion is bounded by the input length.", "quantifier": "every byte string of any length", "why_tests_cant": "a hang needs one adversarial packet out of infinitely many", "anchors": ["pyzwave/message.py:Message.deserialize", "pyzwave/commandclass/Zip.py:HeaderExtension.deserialize", "pyzwave/commandclass/NodeProvisioning.py:MetadataExtension.deserialize", "pyzwave/commandclass/SensorMultilevel.py:SensorSupported.deserialize"]}
{"id": "C10", "title": "compose() fails instead of guessing", "statement": "compose() raises AttributeError when an attribute without a default has not been set, and raises ValueError when an attribute type has no encoder; it never emits bytes for a message with a missing required attribute.", "quantifier": "every message type and every subset of set attributes", "why_tests_cant": "2^n subsets per message type", "anchors": ["pyzwave/message.py:Message.compose"]}
{"id": "C11", "title": "Decoded packets re-encode to the same bytes", "statement": "If a packet decodes to a message then compose() of that message gives the packet back.", "quantifier": "every byte string accepted by Message.decode", "why_tests_cant": "depends on reserved bits, trailing bytes and repeated attribute names the tests never set", "anchors": ["pyzwave/message.py:Message.compose", "pyzwave/message.py:Message.decode", "pyzwave/util.py:AttributesMixin.__setattr__"]}
{"id": "C12", "title": "An out-of-range sub-byte value cannot corrupt its neighbours", "statement": "Setting a sub-byte attribute (flag, bits, uint3/4/5/7) to a value that does not fit either raises when the message is composed or leaves all other attributes of the composed message unchanged.", "quantifier": "every integer assigned to every sub-byte attribute", "why_tests_cant": "infinite values; corruption shows only in the neighbouring field", "anchors": ["pyzwave/types.py:BitStreamWriter.addBits", "pyzwave/types.py:flag_t"]}
{"id": "C13", "title": "Acknowledge packets answer the packet they are for", "statement": "ZipPacket.response() carries the sequence number of the original packet, swaps source and destination end points, sets exactly the requested ack/nack flags, carries no command, and survives composing and decoding.", "quantifier": "every decoded or constructed Z/IP packet and every combination of response arguments", "why_tests_cant": "field combinations (endpoints x flags x sequence numbers) are too many to enumerate by hand", "anchors": ["pyzwave/commandclass/Zip.py:ZipPacket.response"]}
{"id": "C14", "title": "Expected delay is read from the header extension", "statement": "For a Z/IP packet whose header extension contains any sequence of well-formed known options, headerExtension.expectedDelay equals the signed 24 bit number of the last expected-delay option, and is 0 if there is none.", "quantifier": "every list of options, every option payload, every 24 bit delay", "why_tests_cant": "option order, count and payload lengths are unbounded", "anchors": ["pyzwave/commandclass/Zip.py:HeaderExtension", "pyzwave/commandclass/Zip.py:ZIPPacketOption.parse_optionData"]}
{"id": "C15", "title": "Unsupported or malformed header options never produce a message", "statement": "A Z/IP packet whose header extension contains an option of unsupported type (with payload) or runs past its declared length raises from decode; it is never delivered with a misread command.", "quantifier": "every packet with such an option at any place in the option list", "why_tests_cant": "adversarial packets", "anchors": ["pyzwave/commandclass/Zip.py:ZIPPacketOption.parse_optionData", "pyzwave/commandclass/Zip.py:HeaderExtension.deserialize"]}
{"id": "C16", "title": "Association node lists round-trip on the wire", "statement": "Decoding an encoded association node list gives the single-channel nodes followed by the multi-channel nodes, each group in its original order, for all node ids 1..255 (and any end point); hence lists already in that order come back unchanged.", "quantifier": "every list of nodes of any length", "why_tests_cant": "list length and interleaving are unbounded", "anchors": ["pyzwave/commandclass/Association.py:Nodes.serialize", "pyzwave/commandclass/Association.py:Nodes.deserialize"]}
{"id": "C17", "title": "Association node lists survive persistence", "statement": "Nodes.__setstate__(Nodes.__getstate__()) applied to an empty list gives the same list of (node, end point) pairs back, also after the state has been turned into strings by YAML.", "quantifier": "every node list of any length with any natural ids", "why_tests_cant": "string formatting and parsing over unbounded integers", "anchors": ["pyzwave/commandclass/Association.py:Nodes.__getstate__", "pyzwave/commandclass/Association.py:Nodes.__setstate__"]}
{"id": "C18", "title": "Node list bitmap is decoded bit by bit", "statement": "After decoding a node list report, node n (1..224) is in the list exactly if bit (n-1) mod 8 of mask byte (n-1) div 8 is set; reports with a shorter mask raise EOFError.", "quantifier": "every 28 byte mask and every node number", "why_tests_cant": "2^224 masks", "anchors": ["pyzwave/commandclass/NetworkManagementProxy.py:NodeList.deserialize"]}
{"id": "C19", "title": "Every legal node id can be reported", "statement": "Every Z-Wave node id 1..232 can appear in a decoded node list.", "quantifier": "every node id 1..232 and every report", "why_tests_cant": "absence of a value from every possible report cannot be shown by running reports", "anchors": ["pyzwave/commandclass/NetworkManagementProxy.py:NodeList.deserialize"]}
{"id": "C20", "title": "Supported sensor bitmap is decoded byte-wise", "statement": "After decoding a supported sensor report, sensor type t is in the set exactly if bit (t-1) mod 8 of byte (t-1) div 8 of the mask is set.", "quantifier": "every mask of any length with only known sensor types", "why_tests_cant": "masks of any length", "anchors": ["pyzwave/commandclass/SensorMultilevel.py:SensorSupported.deserialize"]}
{"id": "C21", "title": "DSK text form round-trips", "statement": "Reading the text form of a 16 byte DSK into a new DSK gives the same 16 bytes; the text is 8 groups of 5 decimal digits; text with another number of groups leaves the DSK unchanged, and raw keys of a length other than 0 or 16 are rejected.", "quantifier": "all 2^128 keys and all text inputs", "why_tests_cant": "2^128 keys", "anchors": ["pyzwave/types.py:dsk_t"]}
{"id": "C22", "title": "Scaled sensor values decode to mantissa / 10^precision", "statement": "Decoding a scaled value gives the signed big-endian mantissa of the given size divided by 10^precision with the transmitted scale, and consumes 1 + size bytes.", "quantifier": "every precision, scale, size and mantissa", "why_tests_cant": "size up to 7 bytes", "anchors": ["pyzwave/types.py:float_t.deserialize"]}
{"id": "C23", "title": "Configuration values are encoded with their declared size", "statement": "A Configuration.Set with size s and value v composes to s big-endian value bytes exactly if 0 <= v < 256^s, otherwise composing raises OverflowError; a Configuration.Report with size s yields the unsigned big-endian number of its s value bytes.", "quantifier": "every parameter, size 0..7 and every integer value", "why_tests_cant": "infinite values", "anchors": ["pyzwave/commandclass/Configuration.py:Set.compose_value", "pyzwave/commandclass/Configuration.py:Report.parse_value"]}
{"id": "C24", "title": "Supervised commands round-trip", "statement": "Composing a Supervision.Get around any command and decoding it gives a Supervision.Get around that command.", "quantifier": "every session id and every inner command", "why_tests_cant": "inner command is unbounded", "anchors": ["pyzwave/commandclass/Supervision.py:Get"]}
{"id": "C25", "title": "Command class lists of added nodes are read within the report", "statement": "The command class list of a NodeAddStatus contains nodeInfoLength-7 bytes of the report, or all remaining bytes if fewer are present, and never anything outside the report.", "quantifier": "every report", "why_tests_cant": "length byte vs. actual length combinations", "anchors": ["pyzwave/commandclass/NetworkManagementInclusion.py:NodeAddStatus.parse_commandClass"]}
{"id": "C26", "title": "Group reports parse every advertised entry", "statement": "A group command list report of advertised (even) length n yields the n/2 consecutive (class, command) pairs; a group info report yields groupCount groups whose identifier, mode, profile and event code are read from consecutive 7 byte records; a truncated command list raises EOFError.", "quantifier": "every count and every payload", "why_tests_cant": "counts up to 63/255 with arbitrary payload", "anchors": ["pyzwave/commandclass/AssociationGrpInfo.py:GroupCommandListReport.parse_commandClass", "pyzwave/commandclass/AssociationGrpInfo.py:GroupInfoReport.parse_groups"]}
{"id": "C27", "title": "Failing-node notifications accept both encodings", "statement": "A mailbox NodeFailing message yields the queue handle both when it is sent as a single byte and when it is sent as a 16 byte address ending in the handle.", "quantifier": "every handle and every 15 byte prefix", "why_tests_cant": "2^120 prefixes", "anchors": ["pyzwave/commandclass/Mailbox.py:NodeFailing.parse_queueHandle"]}
{"id": "C28", "title": "Smart start metadata is decoded entry by entry", "statement": "A provisioning list report yields, for each known metadata type present, exactly the bytes of its last entry; an unknown metadata type raises.", "quantifier": "every list of metadata entries", "why_tests_cant": "unbounded number and size of entries", "anchors": ["pyzwave/commandclass/NodeProvisioning.py:MetadataExtension.deserialize"]}
{"id": "C29", "title": "send() succeeds only on a matching acknowledgement", "statement": "ZIPConnection.send() returns True only if, after it transmitted its packet and before its timeout, an acknowledge packet with the sequence number of that packet was received.", "quantifier": "every interleaving of any number of concurrent sends, acks, nacks and timeouts", "why_tests_cant": "schedules are unbounded", "anchors": ["pyzwave/zipconnection.py:ZIPConnection.send", "pyzwave/adapter.py:Adapter.waitForAck", "pyzwave/adapter.py:Adapter.ackReceived"]}
{"id": "C30", "title": "A matching acknowledgement completes send()", "statement": "If an acknowledge packet with the sequence number of an outstanding send() arrives before its timeout then that send() returns True, and it affects no other outstanding send().", "quantifier": "every interleaving", "why_tests_cant": "schedules are unbounded", "anchors": ["pyzwave/adapter.py:Adapter.ackReceived", "pyzwave/adapter.py:Ack"]}
{"id": "C31", "title": "A queued response neither completes nor fails send()", "statement": "A 'waiting' negative acknowledgement keeps the send() pending and re-arms its timeout to the expected delay plus 60 s (180 s if the delay is negative), however many such responses arrive; only a later ack makes it return True.", "quantifier": "every number and order of waiting responses and delays", "why_tests_cant": "unbounded repetition", "anchors": ["pyzwave/adapter.py:Ack.queued", "pyzwave/adapter.py:Ack.wait"]}
{"id": "C32", "title": "No acknowledgement state is left behind", "statement": "When a send() has returned or timed out, its sequence number is no longer registered as outstanding, so the number can be used again after wrap-around.", "quantifier": "every history of sends, acks and timeouts", "why_tests_cant": "a leak only bites after 256 sends", "anchors": ["pyzwave/adapter.py:Adapter.waitForAck"]}
{"id": "C33", "title": "Sequence numbers", "statement": "Sequence numbers of consecutive packets are consecutive modulo 256, always fit the 8 bit field, and any 256 consecutive sends use pairwise different numbers; a send whose number is still outstanding raises instead of waiting for the wrong ack.", "quantifier": "every number of sends from every state", "why_tests_cant": "wrap-around needs hundreds of sends in a particular pattern", "anchors": ["pyzwave/zipconnection.py:ZIPConnection.send", "pyzwave/adapter.py:Adapter.waitForAck"]}
{"id": "C34", "title": "Undecodable packets have no effect", "statement": "A received packet that cannot be decoded changes no state, delivers nothing to listeners and is reported as not handled.", "quantifier": "every byte string for which decoding raises", "why_tests_cant": "infinitely many malformed packets", "anchors": ["pyzwave/zipconnection.py:ZIPConnection.onPacket"]}
{"id": "C35", "title": "Received packets are dispatched by kind", "statement": "onPacket() treats an ack (or a waiting nack) as an acknowledgement and never as a command; a packet that is neither ack, nack nor ack-request and includes a command is delivered exactly once, either to a waiting caller or to the listeners; other nacks, ack requests, keep-alives and unknown packets are never delivered.", "quantifier": "every decoded packet and every connection state", "why_tests_cant": "2^8 flag combinations times arbitrary payload and state", "anchors": ["pyzwave/zipconnection.py:ZIPConnection.onPacket", "pyzwave/adapter.py:Adapter.commandReceived"]}
{"id": "C36", "title": "A waiting nack without header extension is handled", "statement": "A waiting negative acknowledgement for an outstanding send never raises out of onPacket, whatever optional parts it carries.", "quantifier": "every packet with the waiting flags set", "why_tests_cant": "requires the particular truncated shape", "anchors": ["pyzwave/adapter.py:Adapter.ackReceived", "pyzwave/commandclass/Zip.py:HeaderExtension.expectedDelay"]}
{"id": "C37", "title": "Exactly one keep-alive timer", "statement": "After connect(), at every moment exactly one keep-alive timer is armed, and it is re-armed to 25 s by every send and every keep-alive.", "quantifier": "every history of sends and timer expirations", "why_tests_cant": "timers accumulate only over long histories", "anchors": ["pyzwave/zipconnection.py:ZIPConnection.resetKeepAlive", "pyzwave/zipconnection.py:ZIPConnection.keepAlive"]}
{"id": "C38", "title": "Waiters only get messages of the requested type", "statement": "waitForMessage(T) and sendAndReceive(_, T) never return a message of another type.", "quantifier": "every interleaving of waiters, messages and timeouts", "why_tests_cant": "schedules are unbounded", "anchors": ["pyzwave/util.py:MessageWaiter"]}
{"id": "C39", "title": "A message is consumed by at most one waiting session", "statement": "Each received message resolves at most one waiting session, and exactly when a session for its type is registered it is reported as handled; a session is resolved at most once.", "quantifier": "every interleaving", "why_tests_cant": "schedules are unbounded", "anchors": ["pyzwave/util.py:MessageWaiter.messageReceived"]}
{"id": "C40", "title": "Adapter.sendAndReceive does not miss an early reply", "statement": "If the reply to Adapter.sendAndReceive arrives at any time after the call (even before the transmission has been acknowledged) and before the timeout, and no other caller waits for that message type, the call returns that reply.", "quantifier": "every schedule of ack, reply and unrelated traffic", "why_tests_cant": "race between ack and reply", "anchors": ["pyzwave/adapter.py:Adapter.sendAndReceive", "pyzwave/util.py:MessageWaiter.addWaitingSession"]}
{"id": "C41", "title": "Node.sendAndReceive does not miss an early reply", "statement": "The same guarantee for Node.sendAndReceive.", "quantifier": "every schedule of ack, reply and unrelated traffic", "why_tests_cant": "race between ack and reply", "anchors": ["pyzwave/node.py:Node.sendAndReceive"]}
{"id": "C42", "title": "Waiters do not disturb each other", "statement": "The completion or timeout of one waiter for a message type never makes another waiter for the same type miss a message or fail.", "quantifier": "every interleaving of two or more waiters", "why_tests_cant": "races", "anchors": ["pyzwave/util.py:MessageWaiter.waitForMessage"]}
{"id": "C43", "title": "Network management commands keep working", "statement": "Network management commands (node list, node info, add/remove ...) can be issued any number of times over the life of a gateway connection.", "quantifier": "every number of previously issued commands", "why_tests_cant": "needs more than 255 commands on one connection", "anchors": ["pyzwave/zipgateway.py:ZIPGateway._nmSeq"]}
{"id": "C44", "title": "Gateway node table equals the latest node list", "statement": "After an unsolicited node list report has been processed, getNodeList() returns exactly the nodes of that report, each known node keeps its address, and listeners are told once.", "quantifier": "every previous table and every report", "why_tests_cant": "all pairs of tables", "anchors": ["pyzwave/zipgateway.py:ZIPGateway.__handleNodeListReport__", "pyzwave/zipgateway.py:ZIPGateway.getNodeList"]}
{"id": "C45", "title": "Unsolicited messages are attributed to the sender's node", "statement": "An unsolicited packet is delivered to listeners under a node id exactly if that node is the first one known with the sender's IPv6 address, with the packet's source end point and command; it is acknowledged exactly if it asked for it; packets from unknown addresses are neither acknowledged nor delivered.", "quantifier": "every node table, sender and packet", "why_tests_cant": "all tables and packets", "anchors": ["pyzwave/zipgateway.py:ZIPGateway.onUnsolicitedMessage"]}
{"id": "C46", "title": "Node traffic is attributed to the right node", "statement": "A message received on a node connection is delivered under the node id that connection was opened for; connectToNode returns the same connection for the same node, so there is at most one connection per node.", "quantifier": "every sequence of connects and messages (not overlapping connects to the same node)", "why_tests_cant": "unbounded histories", "anchors": ["pyzwave/zipgateway.py:ZIPGateway.onMessageReceived", "pyzwave/zipgateway.py:ZIPGateway.connectToNode"]}
{"id": "C47", "title": "Address lookups for different nodes do not mix", "statement": "ipOfNode(n) returns the address advertised for node n also when several lookups are in flight.", "quantifier": "every interleaving of lookups and advertisements", "why_tests_cant": "races", "anchors": ["pyzwave/zipgateway.py:ZIPGateway.ipOfNode"]}
{"id": "C48", "title": "Node information frames are split at the marks", "statement": "For every command class list, a class is supported exactly if it occurs before the support/control mark or after a later security mark, it requires S0 security exactly if its last such occurrence is after a security mark, and marks themselves are never taken as classes.", "quantifier": "every command class list of any length", "why_tests_cant": "unbounded lists with marks anywhere", "anchors": ["pyzwave/node.py:Node.__init__"]}
{"id": "C49", "title": "Supervised messages are answered exactly once", "statement": "Handling a Supervision.Get sends exactly one Supervision.Report with the same session id, status 0xFF if the inner command was handled and 0x00 otherwise, and the result equals the result of handling the inner command; unsupervised messages send no report.", "quantifier": "every message, listener set and node state", "why_tests_cant": "all handlers and sessions", "anchors": ["pyzwave/node.py:supervision", "pyzwave/node.py:Node.handleMessage"]}
{"id": "C50", "title": "Message routing inside a node", "statement": "A message offered to a node is handled exactly if a waiter took it, its command class handler or listener handled it, or a catch-all listener handled it; the catch-all listeners are asked only if nobody else handled it.", "quantifier": "every message, node state and listener behaviour", "why_tests_cant": "combinatorial", "anchors": ["pyzwave/node.py:Node.handleMessage", "pyzwave/commandclass/CommandClass.py:CommandClass.handleMessage"]}
{"id": "C51", "title": "The storage lock batches updates", "statement": "While a (non nested) storage lock is held no update notification is sent; when it is released exactly one is sent if anything was updated and none otherwise; without a lock every update sends one.", "quantifier": "every history of updates and lock acquisitions and releases", "why_tests_cant": "unbounded histories", "anchors": ["pyzwave/node.py:Node.storageLock", "pyzwave/node.py:Node.commandClassUpdated"]}
{"id": "C52", "title": "No update is lost by nested storage locks", "statement": "Also with nested storage locks every update is followed by an update notification no later than the release of the outermost lock.", "quantifier": "every properly nested history", "why_tests_cant": "nesting", "anchors": ["pyzwave/node.py:Node.storageLock"]}
{"id": "C53", "title": "Application node table follows the controller", "statement": "After nodeListUpdated() the application's nodes are exactly the controller's other nodes and, for new multi channel nodes, their end points; nodes already known keep their object.", "quantifier": "every table, node list and end point configuration", "why_tests_cant": "all tables and lists", "anchors": ["pyzwave/application.py:Application.nodeListUpdated", "pyzwave/application.py:Application.loadNode"]}
{"id": "C54", "title": "Node events match the table change", "statement": "nodeListUpdated() reports every removed node exactly once as removed, every added node exactly once as added, and nothing else; batch and single notifications agree.", "quantifier": "every table and node list", "why_tests_cant": "all tables and lists", "anchors": ["pyzwave/application.py:Application.nodeListUpdated"]}
{"id": "C55", "title": "Messages reach the addressed node or end point", "statement": "A message from node n end point e is handed to the node with id 'n:e' and to no other; messages from unknown nodes are not handled; node ids are unambiguous.", "quantifier": "every table, node id and end point", "why_tests_cant": "all ids", "anchors": ["pyzwave/application.py:Application.messageReceived", "pyzwave/node.py:Node.nodeId"]}
{"id": "C56", "title": "Inclusion and exclusion status is reported", "statement": "Application.onMessageReceived reports NodeAddStatus and NodeRemoveStatus to the matching listener callback, signals removal of node 0 exactly for a DONE status with node id 0, and never treats non Z/IP packets as handled.", "quantifier": "every message and listener behaviour", "why_tests_cant": "combinatorial", "anchors": ["pyzwave/application.py:Application.onMessageReceived"]}
{"id": "C57", "title": "Overlapping node list updates are safe", "statement": "Two node list updates processed concurrently leave the application with the nodes of the latest list and do not fail.", "quantifier": "every interleaving of two updates", "why_tests_cant": "races", "anchors": ["pyzwave/application.py:Application.nodeListUpdated"]}
{"id": "C58", "title": "A command class is marked interviewed only after a successful interview", "statement": "After interview() the command class is marked interviewed exactly if the version was known or obtained and the interview neither timed out nor returned False; during the interview it is not marked.", "quantifier": "every version answer and interview outcome", "why_tests_cant": "all outcomes and prior states", "anchors": ["pyzwave/commandclass/CommandClass.py:interviewDecorator"]}
{"id": "C59", "title": "Cached configuration values are the last reported ones", "statement": "Configuration.get(n) with caching returns, without any traffic, the value of the most recent report for parameter n received since start (or load), and asks the node exactly if there was none.", "quantifier": "every history of reports, gets and sets", "why_tests_cant": "unbounded histories", "anchors": ["pyzwave/commandclass/Configuration.py:Configuration"]}
{"id": "C60", "title": "Unsupported sensor reports are filtered, others are not", "statement": "From version 5 on, a sensor report reaches the listeners exactly if its type and scale are among those found by the interview; before version 5 every report reaches them.", "quantifier": "every supported set, report and version", "why_tests_cant": "all sets", "anchors": ["pyzwave/commandclass/SensorMultilevel.py:SensorMultilevel.__report__"]}
{"id": "C61", "title": "Association groups after an interview", "statement": "After an association interview in which every group answered, there is one group per advertised group number holding the reported maximum and nodes; unanswered groups keep what was known; groups never disappear.", "quantifier": "every number of groups and every pattern of answers", "why_tests_cant": "2^n answer patterns", "anchors": ["pyzwave/commandclass/Association.py:Association.interview", "pyzwave/commandclass/Association.py:Groupings.setNumGroups"]}
{"id": "C62", "title": "Lifeline association is only added when missing", "statement": "setupLifeLine() sends an association to the controller exactly if the node is Z-Wave Plus, group 1 exists and does not already contain the controller, using the multi channel form exactly if the node supports both multi channel classes.", "quantifier": "every node capability set and group content", "why_tests_cant": "all contents", "anchors": ["pyzwave/commandclass/Association.py:Association.setupLifeLine", "pyzwave/commandclass/Association.py:Nodes.contains"]}
{"id": "C63", "title": "Group information is assembled from the reports", "statement": "After group info, name and command list reports (in any order after the info report), each group holds the last reported profile, name and commands; names of unknown groups are ignored.", "quantifier": "every report sequence", "why_tests_cant": "unbounded sequences", "anchors": ["pyzwave/commandclass/AssociationGrpInfo.py:AssociationGrpInfo"]}
{"id": "C64", "title": "Command class attributes survive save and load", "statement": "Saving a node and loading it into a fresh node of the same kind restores the version and all stored attributes of Version, ManufacturerSpecific, ZwavePlusInfo, Configuration, SensorMultilevel and Association.", "quantifier": "every attribute content", "why_tests_cant": "unbounded dictionaries and integers", "anchors": ["pyzwave/persistantstorage.py:YamlStorage", "pyzwave/util.py:AttributesMixin.__getstate__", "pyzwave/util.py:AttributesMixin.__setstate__"]}
{"id": "C65", "title": "The interviewed mark survives save and load", "statement": "After save and load a command class is marked interviewed exactly if it was before.", "quantifier": "both values", "why_tests_cant": "the storage format, not a mock, decides it", "anchors": ["pyzwave/commandclass/CommandClass.py:CommandClass.__setstate__", "pyzwave/persistantstorage.py:YamlStorage.nodeAdded"]}
{"id": "C66", "title": "Association group information survives save and load", "statement": "After save and load the group names, profiles and command lists of AssociationGrpInfo are the same values.", "quantifier": "every content", "why_tests_cant": "the storage format decides it", "anchors": ["pyzwave/commandclass/AssociationGrpInfo.py:Groupings", "pyzwave/persistantstorage.py:YamlStorage.nodeAdded"]}
{"id": "C67", "title": "A crash while saving keeps a loadable state", "statement": "If the process stops at any point while a node is saved, a later start finds either the previous or the new settings of the node.", "quantifier": "every crash point and every content", "why_tests_cant": "crash points cannot be enumerated by tests", "anchors": ["pyzwave/persistantstorage.py:YamlStorage.nodeUpdated"]}
{"id": "C68", "title": "A failing listener does not stop the others", "statement": "speak() calls every listener that has the callback exactly once, in registration order, and returns one result per listener that did not raise; an exception in a synchronous listener affects no other listener.", "quantifier": "every list of listeners and every pattern of failures", "why_tests_cant": "unbounded lists", "anchors": ["pyzwave/util.py:Listenable.speak", "pyzwave/util.py:Listenable.ask"]}
{"id": "C69", "title": "Mailbox entries are never invented or duplicated", "statement": "Every entry the mailbox hands out for a queue handle was accepted by a push for that handle, and is handed out at most once per accepted push.", "quantifier": "every interleaving of pushes, pops and send outcomes", "why_tests_cant": "unbounded histories", "anchors": ["pyzwave/mailbox.py:MailboxService"]}
{"id": "C70", "title": "Mailbox entries of a queue are unique", "statement": "At any time the checksums of the entries stored for one handle are pairwise different.", "quantifier": "every history in which pushes to one handle do not overlap", "why_tests_cant": "unbounded histories", "anchors": ["pyzwave/mailbox.py:MailboxService.__pushQueue__"]}
{"id": "C71", "title": "Mailbox uniqueness under overlapping pushes", "statement": "The same, when pushes may overlap.", "quantifier": "every interleaving", "why_tests_cant": "races", "anchors": ["pyzwave/mailbox.py:MailboxService.__pushQueue__"]}
{"id": "C72", "title": "Mailbox is a queue", "statement": "Entries of a handle are handed out in the order in which they were accepted.", "quantifier": "every history", "why_tests_cant": "unbounded histories", "anchors": ["pyzwave/mailbox.py:MailboxService.__popQueue__"]}
{"id": "C73", "title": "The last mailbox entry is flagged", "statement": "A popped entry is flagged 'last' exactly if no entry remains for the handle, and an empty pop is always flagged 'last'.", "quantifier": "every queue content", "why_tests_cant": "unbounded contents", "anchors": ["pyzwave/mailbox.py:MailboxService.__popQueue__"]}
{"id": "C74", "title": "A mailbox entry is not lost when delivery fails", "statement": "If handing out an entry fails, the entry stays available.", "quantifier": "every history", "why_tests_cant": "failure injection at every step", "anchors": ["pyzwave/mailbox.py:MailboxService.__popQueue__"]}
{"id": "C75", "title": "Heartbeats run exactly for stored entries", "statement": "Heartbeats are sent exactly for the entries that are stored, starting with acceptance and ending with successful delivery; every tenth heartbeat is a PING, the others are WAITING.", "quantifier": "every history and every number of heartbeats", "why_tests_cant": "unbounded histories", "anchors": ["pyzwave/mailbox.py:QueueItem._runner", "pyzwave/mailbox.py:MailboxService"]}
{"id": "C76", "title": "Distinct mailbox entries are all accepted", "statement": "A pushed message that differs from every stored entry of its handle is accepted.", "quantifier": "every queue content and every message", "why_tests_cant": "depends on checksum collisions", "anchors": ["pyzwave/mailbox.py:QueueItem.checksum"]}
{"id": "C77", "title": "A header extension cannot have length zero", "statement": "A Z/IP packet whose header extension declares length 0 (the length byte counts itself, so the smallest legal value is 1) is rejected; it is never delivered with a command read from the wrong position.", "quantifier": "every packet with such an extension", "why_tests_cant": "the space of packets is unbounded", "anchors": ["pyzwave/commandclass/Zip.py:HeaderExtension.deserialize"]}
{"id": "C78", "title": "Installation and maintenance reports yield what the gateway sent", "statement": "Decoding the installation and maintenance option of a header extension yields, for every type that occurs in it, exactly the value of its last entry; types that do not occur are absent.", "quantifier": "every list of entries with values of any length", "why_tests_cant": "unboundedly many entries", "anchors": ["pyzwave/commandclass/Zip.py:HeaderExtension", "pyzwave/commandclass/Zip.py:InstallationMaintenanceReport"]}
{"id": "C79", "title": "Strings are decoded as UTF-8, or rejected", "statement": "A string attribute that is a length octet followed by the UTF-8 encoding of a text is decoded to exactly that text and what follows it is untouched; octets that are not the encoding of any text (overlong forms, surrogates, truncated sequences, values above 0x10FFFF) are rejected.", "quantifier": "every text and every octet string", "why_tests_cant": "the space of octet strings is unbounded", "anchors": ["pyzwave/types.py:str_t"]}
{"id": "C80", "title": "A group contains exactly its listed nodes", "statement": "Asking whether a node (and end point) is a member of an association group answers yes exactly if the entry is in the group.", "quantifier": "every group, node id and end point", "why_tests_cant": "unbounded groups", "anchors": ["pyzwave/commandclass/Association.py:Nodes"]}
{"id": "C81", "title": "A send reports its outcome by its return value", "statement": "A call of send() whose packet was transmitted and registered ends by returning True or False; it does not raise (unless it is cancelled).", "quantifier": "every schedule of sends, packets, timers and task switches", "why_tests_cant": "needs the schedules in which the acknowledgement and the timeout coincide", "anchors": ["pyzwave/zipconnection.py:ZIPConnection.send", "pyzwave/adapter.py:Adapter.waitForAck"]}
{"id": "C82", "title": "The newest node list wins", "statement": "When the handlers of all node list reports have ended, the nodes known are exactly those of the newest report.", "quantifier": "every pair of overlapping reports and every schedule", "why_tests_cant": "needs the schedules in which the handlers of two reports overlap", "anchors": ["pyzwave/zipgateway.py:ZIPGateway.__handleNodeListReport__"]}
{"id": "C83", "title": "Listeners hear about every node list report", "statement": "When the handler of a node list report has ended the listeners have been told nodeListUpdated, also if a new node does not answer.", "quantifier": "every report, every set of nodes that do not answer, every schedule", "why_tests_cant": "unboundedly many combinations of timeouts", "anchors": ["pyzwave/zipgateway.py:ZIPGateway.__handleNodeListReport__", "pyzwave/zipgateway.py:ZIPGateway.ipOfNode"]}
{"id": "C84", "title": "Messages on every returned node connection are delivered", "statement": "A message received on a connection connectToNode(n) has returned is told to the listeners under n, also if several calls for n overlapped.", "quantifier": "every schedule of overlapping calls", "why_tests_cant": "races", "anchors": ["pyzwave/zipgateway.py:ZIPGateway.connectToNode", "pyzwave/zipgateway.py:ZIPGateway.onMessageReceived"]}
{"id": "C85", "title": "Success of an inclusion or exclusion command means it was acknowledged", "statement": "addNode, addNodeDSKSet, addNodeKeysSet, addNodeStop, removeNode and removeNodeStop return True only if the gateway acknowledged the command.", "quantifier": "every schedule of commands, acknowledgements and timeouts", "why_tests_cant": "depends on the schedule", "anchors": ["pyzwave/zipgateway.py:ZIPGateway.removeNode", "pyzwave/zipconnection.py:ZIPConnection.send"]}
{"id": "C86", "title": "setGatewayMode changes the mode only when needed", "statement": "setGatewayMode(mode) asks for the mode, transmits a Set if and only if the reported mode differs, and returns False without changing anything if there is no report in time.", "quantifier": "every mode and every report", "why_tests_cant": "all pairs of modes in every state", "anchors": ["pyzwave/zipgateway.py:ZIPGateway.setGatewayMode"]}
{"id": "C87", "title": "Gateway queries return what was reported, or the documented fallback", "statement": "getFailedNodeList, getMultiChannelEndPoints, getMultiChannelCapability, getNodeInfo and removeFailedNode return the content of a report of the right type that arrived during the call, or their fallback value if none did.", "quantifier": "every history of calls, packets and timeouts", "why_tests_cant": "unbounded histories", "anchors": ["pyzwave/zipgateway.py:ZIPGateway.getFailedNodeList", "pyzwave/zipgateway.py:ZIPGateway.getMultiChannelEndPoints", "pyzwave/zipgateway.py:ZIPGateway.removeFailedNode"]}
{"id": "C88", "title": "Gateway queries return the answer for the node asked about", "statement": "getMultiChannelEndPoints(n) returns the number reported for node n, also when queries for several nodes are in flight.", "quantifier": "every interleaving of queries and reports", "why_tests_cant": "races", "anchors": ["pyzwave/zipgateway.py:ZIPGateway.getMultiChannelEndPoints"]}
{"id": "C89", "title": "No stale answers", "statement": "A message returned by waitForMessage or sendAndReceive arrived after the call was made.", "quantifier": "every history of calls, messages, timeouts and cancellations", "why_tests_cant": "unbounded histories", "anchors": ["pyzwave/util.py:MessageWaiter.waitForMessage", "pyzwave/adapter.py:Adapter.sendAndReceive"]}
{"id": "C90", "title": "Overlapping interviews do not mark a class early", "statement": "While an interview of a command class is running the class is not marked as interviewed, also when several interviews of it overlap.", "quantifier": "every interleaving of interview() calls and their answers", "why_tests_cant": "races between calls", "anchors": ["pyzwave/commandclass/CommandClass.py:interviewDecorator"]}
{"id": "C91", "title": "A configuration value is the one that was asked for", "statement": "What Configuration.get(n) returns has been reported by the node for parameter n, also when reports for other parameters arrive meanwhile.", "quantifier": "every history of gets, reports and answers", "why_tests_cant": "depends on which report arrives first", "anchors": ["pyzwave/commandclass/Configuration.py:Configuration.get"]}
{"id": "C92", "title": "Version, manufacturer and Z-Wave Plus information is what was reported", "statement": "After an interview of these classes each attribute holds the reported value; if the node does not answer nothing changes; a truncated report raises and never leaves a value that was not reported.", "quantifier": "every report and every previous content", "why_tests_cant": "all report contents and truncations", "anchors": ["pyzwave/commandclass/Version.py:Version.interview", "pyzwave/commandclass/ManufacturerSpecific.py:ManufacturerSpecific.interview", "pyzwave/commandclass/ZwavePlusInfo.py:ZwavePlusInfo.interview"]}
{"id": "C93", "title": "The mailbox answers wakeups and acknowledgements", "statement": "Every wakeup notification and every acknowledgement of an entry is answered with exactly one POP message to its sender, for the queue it names.", "quantifier": "every history and every queue handle", "why_tests_cant": "unbounded histories", "anchors": ["pyzwave/mailbox.py:MailboxService.messageReceived", "pyzwave/mailbox.py:MailboxService.__popQueue__"]}
{"id": "C94", "title": "Every node in the table has been announced", "statement": "When no node list update or startup is running, listeners have been told nodeAdded for every node and end point the application has.", "quantifier": "every history of updates and startups, every answer and failure", "why_tests_cant": "depends on which query fails when", "anchors": ["pyzwave/application.py:Application.loadNode", "pyzwave/application.py:Application.nodeListUpdated"]}
{"id": "C95", "title": "Startup loads and announces the network", "statement": "After startup() the application has exactly the controller's other nodes and the end points of the multi channel nodes, and listeners have been told about all of them once together and once each.", "quantifier": "every node list, node information and end point configuration", "why_tests_cant": "all networks", "anchors": ["pyzwave/application.py:Application.startup", "pyzwave/application.py:Application.loadNode"]}
{"id": "C96", "title": "Saved settings of nodes do not mix", "statement": "Whatever nodes are saved, how often and in which order, what is loaded for a node is what was last saved for that node, or what was there before if it was not saved.", "quantifier": "every sequence of saves of any nodes", "why_tests_cant": "unbounded histories of saves", "anchors": ["pyzwave/persistantstorage.py:YamlStorage.nodeUpdated", "pyzwave/persistantstorage.py:YamlStorage.nodeAdded", "pyzwave/persistantstorage.py:YamlStorage.pathForNode"]}
{"id": "C97", "title": "Commands go to the node they are for", "statement": "sendToNode() and Node.send() put each command into exactly one datagram, on a connection opened for that node, with the source and destination end point given and consecutive numbers; nothing else is sent. They return True only if that datagram was acknowledged on that connection after it was sent, and raise without sending if the connection cannot be opened.", "quantifier": "every interleaving of calls for any nodes, lookups, socket events, datagrams and timers", "why_tests_cant": "unbounded schedules over many connections", "anchors": ["pyzwave/zipgateway.py:ZIPGateway.sendToNode", "pyzwave/zipgateway.py:ZIPGateway.connectToNode", "pyzwave/node.py:Node.send", "pyzwave/zipconnection.py:ZIPConnection.send"]}
{"id": "C98", "title": "A command from a node reaches that node's object", "statement": "A command in a Z/IP packet that arrives on the connection of a node, or from its address on the unsolicited connection, is handed by the application to the object of that node and source end point and to no other; what arrives on a connection is never handed to another node.", "quantifier": "every gateway and application history, packet header, command and end point", "why_tests_cant": "composition of gateway and application over unbounded histories", "anchors": ["pyzwave/zipconnection.py:ZIPConnection.onPacket", "pyzwave/zipgateway.py:ZIPGateway.onMessageReceived", "pyzwave/zipgateway.py:ZIPGateway.onUnsolicitedMessage", "pyzwave/application.py:Application.messageReceived"]}
{"id": "C99", "title": "Interviewing a node visits every class", "statement": "Node.interview() interviews the supported classes one after the other, each by a new interview, in the order of the node information; a class that times out does not stop it. If it returns, all were interviewed; if it raises, it raises what the interview of one class raised, after those before it and without beginning those after it. Under the storage lock listeners are told at most once, when it is left, and exactly if a class was updated.", "quantifier": "every list of classes, every interleaving of interviews of the node and of single classes, answers, timeouts and exceptions", "why_tests_cant": "unbounded schedules, any number of overlapping interviews", "anchors": ["pyzwave/node.py:Node.interview", "pyzwave/node.py:Node.storageLock", "pyzwave/node.py:Node.commandClassUpdated", "pyzwave/commandclass/CommandClass.py:interviewDecorator"]}
{"id": "C100", "title": "The answer to a question is the answer of the node that was asked", "statement": "If sendAndReceive() on a node returns a message, the message has the requested type, came in a datagram from that node and end point and was delivered after the call was made; and the command was sent to that node and end point and acknowledged on a connection opened for that node, with the number it was sent with, after the call was made.", "quantifier": "every interleaving of questions to any nodes, lookups, socket events, datagrams, timers, deliveries and node list changes", "why_tests_cant": "composition of gateway, connections, application and node objects over unbounded schedules", "anchors": ["pyzwave/node.py:Node.sendAndReceive", "pyzwave/node.py:Node.handleMessage", "pyzwave/application.py:Application.messageReceived", "pyzwave/zipgateway.py:ZIPGateway.sendToNode", "pyzwave/util.py:MessageWaiter"]}
{"id": "C101", "title": "No call waits forever", "statement": "waitForMessage(), sendAndReceive() and ZIPConnection.send() end once their time has passed and the event loop has given them their turns, whatever else happens: with a timeout they end with the message or with an exception, and a send that was told to wait for a sleeping node ends after the announced delay.", "quantifier": "every history before and after the call, every interleaving with other calls, messages and timers", "why_tests_cant": "liveness over unbounded schedules", "anchors": ["pyzwave/util.py:MessageWaiter.waitForMessage", "pyzwave/adapter.py:Adapter.sendAndReceive", "pyzwave/node.py:Node.sendAndReceive", "pyzwave/zipconnection.py:ZIPConnection.send"]}
{"id": "C102", "title": "What arrives on a socket is handed on", "statement": "A connection hands every datagram that arrives while its socket is open to the callback given last, once, unchanged, in the order of arrival, and with the sender's address exactly if the connection listens; errors, failed connection attempts and sending do not disturb this, and nothing else is handed to a callback.", "quantifier": "every history of connect(), listen(), onMessage(), send(), stop(), datagrams, errors and losses", "why_tests_cant": "unbounded histories with several sockets", "anchors": ["pyzwave/connection.py:ZipClientProtocol.datagram_received", "pyzwave/connection.py:Connection._msgReceived", "pyzwave/connection.py:Connection.onMessage"]}
{"id": "C103", "title": "send() on a connection tells whether it sent", "statement": "Connection.send() returns True exactly if the datagram was sent; it is sent once, on the socket of the connect() that returned last. Before connect() has returned it returns False and sends nothing.", "quantifier": "every history, every datagram", "why_tests_cant": "depends on when the socket is opened, lost and closed", "anchors": ["pyzwave/connection.py:Connection.send", "pyzwave/connection.py:Connection.sendTo", "pyzwave/connection.py:Connection.run"]}
{"id": "C104", "title": "A connection ends only when it is stopped or its socket breaks", "statement": "The socket of a connection is closed only by stop() or after a fatal error of that socket.", "quantifier": "every history of connects, losses and errors", "why_tests_cant": "needs the order of the loss of an old socket and a new connect()", "anchors": ["pyzwave/connection.py:Connection.run", "pyzwave/connection.py:Connection.connect", "pyzwave/connection.py:Connection.stop"]}
{"id": "C105", "title": "Meter reports are read as sent", "statement": "For a meter report in the layout of the standard, with any rate type, meter type, value, scale and time, the decoded message has exactly these, and its scale is the number made of the scale bit in the first byte and the two in the second; it is an electric meter scale exactly for electric meters. A report that ends before the value has no scale.", "quantifier": "all rate types, meter types, mantissas, precisions, scales, times and trailing bytes", "why_tests_cant": "the space of reports is unbounded; bits of one number lie in two bytes", "anchors": ["pyzwave/commandclass/Meter.py:Report", "pyzwave/commandclass/Meter.py:Report.scale", "pyzwave/types.py:float_t"]}
{"id": "C106", "title": "The version of a class comes from a report for that class", "statement": "requestVersion() asks for the version of its own class, and the version that is stored is the one in a report for that class, if the node only answers questions.", "quantifier": "every interleaving of questions for versions, reports and timers; every class and version", "why_tests_cant": "needs overlapping calls and reports in every order", "anchors": ["pyzwave/commandclass/CommandClass.py:CommandClass.requestVersion", "pyzwave/node.py:Node.sendAndReceive"]}
{"id": "C107", "title": "Long association lists are held completely", "statement": "After asking a node for an association group, the group holds all nodes that the node reported for it, in however many reports.", "quantifier": "all groups, all lists of nodes, all ways to split them into reports", "why_tests_cant": "unbounded number of reports", "anchors": ["pyzwave/commandclass/Association.py:Association.interviewGrouping", "pyzwave/commandclass/Association.py:Report"]}
{"id": "C108", "title": "A provisioning entry has the layout of the standard", "statement": "A NodeProvisioning.Set message for any key and any meta data has the layout of the standard on the wire: sequence number, length of the key, key, meta data.", "quantifier": "all sequence numbers, keys and meta data", "why_tests_cant": "the layout has to hold for every key and meta data", "anchors": ["pyzwave/commandclass/NodeProvisioning.py:Set", "pyzwave/types.py:dsk_t"]}
{"id": "C109", "title": "The key that is confirmed is sent", "statement": "addNodeDSKSet() sends what it is given: a whole key, as bytes, as text or as found in a report, or the bytes that were asked for.", "quantifier": "all keys, all forms, all requested lengths", "why_tests_cant": "the forms take different ways through the attribute types", "anchors": ["pyzwave/zipgateway.py:ZIPGateway.addNodeDSKSet", "pyzwave/types.py:dsk_t.__setstate__", "pyzwave/types.py:dsk_t.serialize"]}
{"id": "C110", "title": "What a DTLS connection reads is handed on", "statement": "Every datagram a DTLS connection reads is handed on in the event loop, once, unchanged, in order, to the callback that was set when it was read; with the sender if the connection listens.", "quantifier": "every interleaving of the reading thread, the event loop, onMessage(), send(), stop() and errors", "why_tests_cant": "two threads that interleave in unboundedly many ways", "anchors": ["pyzwave/dtlsconnection.py:DTLSConnection.run", "pyzwave/dtlsconnection.py:DTLSConnection.onMessage"]}
{"id": "C111", "title": "connect() of a DTLS connection returns when it can send", "statement": "connect() returns only after the handshake and then send() gives every datagram to the socket; if the handshake ends in time it returns, if not it raises TimeoutError. Before that send() sends nothing. A connection that was used raises RuntimeError.", "quantifier": "every interleaving of the thread, the event loop and timers", "why_tests_cant": "depends on the order of two threads and a timer", "anchors": ["pyzwave/dtlsconnection.py:DTLSConnection.connect", "pyzwave/dtlsconnection.py:DTLSConnection.run", "pyzwave/dtlsconnection.py:DTLSConnection.send"]}
{"id": "C112", "title": "A stopped DTLS connection reads no more", "statement": "After stop() a DTLS connection reads and hands on no datagram.", "quantifier": "every state in which stop() is called, everything that happens afterwards", "why_tests_cant": "the thread may be anywhere when stop() is called", "anchors": ["pyzwave/dtlsconnection.py:DTLSConnection.stop", "pyzwave/dtlsconnection.py:DTLSConnection.run"]}
{"id": "C113", "title": "Keys stay in their buffers", "statement": "The callbacks that hand the pre-shared key to OpenSSL write the key and the identity in the buffers that were passed and nothing outside of them.", "quantifier": "all keys, buffers and contents of memory", "why_tests_cant": "the damage shows only in memory that belongs to others", "anchors": ["pyzwave/dtlsconnection.py:DTLSConnection.clientPskCb", "pyzwave/dtlsconnection.py:DTLSConnection.serverPskCb"]}
{"id": "C114", "title": "Messages can be compared", "statement": "Two messages are equal exactly if they are of the same type and all their attributes are equal, and comparing raises nothing.", "quantifier": "all pairs of messages, received or made", "why_tests_cant": "ranges over all types, all values and all truncated messages", "anchors": ["pyzwave/message.py:Message.__eq__", "pyzwave/message.py:Message.compose"]}
{"id": "C115", "title": "No datagram makes a connection raise", "statement": "Whatever arrives, in whatever state, is handled or ignored: no exception leaves the receive path.", "quantifier": "all datagrams, all histories of a connection", "why_tests_cant": "all byte sequences combined with all states of outstanding calls", "anchors": ["pyzwave/zipconnection.py:ZIPConnection.onPacket", "pyzwave/adapter.py:Adapter.ackReceived", "pyzwave/adapter.py:Adapter.commandReceived", "pyzwave/util.py:MessageWaiter.messageReceived"]}
{"id": "C116", "title": "remove() tells the truth", "statement": "remove() of a node returns True only if the gateway has reported, during the call, that this node has been removed; with any other status or without a report it returns False.", "quantifier": "every history of the gateway, every schedule and every packet that arrives during the call", "why_tests_cant": "overlapping calls and late reports are unbounded in number", "anchors": ["pyzwave/node.py:Node.remove", "pyzwave/zipgateway.py:ZIPGateway.removeFailedNode"]}
{"id": "C117", "title": "connect() gives every node an address", "statement": "When connect() to a gateway has returned, every node in the list has an address: the one it had, or one advertised during the call.", "quantifier": "every history of the gateway, every list of nodes, every schedule and every packet that arrives during the call", "why_tests_cant": "other calls and reports may change the table between any two lookups", "anchors": ["pyzwave/zipgateway.py:ZIPGateway.setupUnsolicitedConnection", "pyzwave/zipgateway.py:ZIPGateway.getNodeList", "pyzwave/zipgateway.py:ZIPGateway.ipOfNode"]}
{"id": "C118", "title": "What is learned is on disk", "statement": "Whenever no interview is running and the storage is not locked, the settings of a node on disk are those in memory: starting again gives every command class its version and attributes.", "quantifier": "every order of version reports, interviews, configuration and group reports and storage locks, every node", "why_tests_cant": "saving depends on notifications that any report, failed interview or nested lock may leave out", "anchors": ["pyzwave/node.py:Node.commandClassUpdated", "pyzwave/node.py:Node.storageLock", "pyzwave/persistantstorage.py:YamlStorage.nodeUpdated", "pyzwave/commandclass/CommandClass.py:interviewDecorator", "pyzwave/commandclass/AssociationGrpInfo.py:AssociationGrpInfo"]}
{"id": "C119", "title": "Saved settings are there after a restart", "statement": "When the application announces a node for which there is a file, the node has the settings in the file.", "quantifier": "every schedule of startup, node list updates, answers and reports from nodes, every file written earlier", "why_tests_cant": "reports may arrive at any moment between loading and announcing a node", "anchors": ["pyzwave/application.py:Application.startup", "pyzwave/application.py:Application.loadNode", "pyzwave/persistantstorage.py:YamlStorage.nodeAdded"]}
{"id": "C120", "title": "A new node does not inherit settings", "statement": "A node that is added after the node with its number was removed starts without settings.", "quantifier": "every schedule of the application and every history of the nodes", "why_tests_cant": "numbers are reused only after many inclusions, and the settings look plausible", "anchors": ["pyzwave/application.py:Application.nodeListUpdated", "pyzwave/persistantstorage.py:YamlStorage.nodeAdded", "pyzwave/persistantstorage.py:YamlStorage.nodeUpdated"]}
{"id": "C121", "title": "Queries give up in time, and not before", "statement": "A query to the gateway that gets no report returns no earlier than its time after the call (3 seconds, 10 for removing a failed node), and it ends once that time has passed after the end of its send.", "quantifier": "every history of the gateway, every query, every schedule in which the event loop gives the query its turns", "why_tests_cant": "other calls, packets and timers may interleave in any way", "anchors": ["pyzwave/zipgateway.py:ZIPGateway.removeFailedNode", "pyzwave/zipgateway.py:ZIPGateway.getNodeList", "pyzwave/zipgateway.py:ZIPGateway.getNodeInfo", "pyzwave/adapter.py:Adapter.sendAndReceive"]}
{"id": "C122", "title": "No call gives up early", "statement": "waitForMessage() and sendAndReceive() do not raise TimeoutError before their timeout has passed after the call, and send() does not end without an acknowledgement before its timeout or, once the gateway has asked to wait, before the announced delay and a minute after that response.", "quantifier": "every schedule, every number of overlapping calls", "why_tests_cant": "timers, responses and other calls may interleave in any way", "anchors": ["pyzwave/util.py:MessageWaiter.waitForMessage", "pyzwave/adapter.py:Adapter.sendAndReceive", "pyzwave/adapter.py:Ack.wait", "pyzwave/node.py:Node.sendAndReceive", "pyzwave/zipconnection.py:ZIPConnection.send"]}
{"id": "C123", "title": "Messages nobody waits for are told", "statement": "A message whose type no call is waiting for is not taken by the waiting calls: it is told to the listeners.", "quantifier": "every schedule of calls, messages, timeouts and cancellations", "why_tests_cant": "depends on how every earlier call for the same type has ended", "anchors": ["pyzwave/util.py:MessageWaiter.messageReceived", "pyzwave/adapter.py:Adapter.sendAndReceive", "pyzwave/node.py:Node.sendAndReceive", "pyzwave/node.py:Node.handleMessage"]}
{"id": "C124", "title": "connect() returns when the gateway is set up", "statement": "When connect() has returned without an exception, the gateway has reported that it is in mode 1 or acknowledged the command to go there, and has acknowledged the destination of unsolicited messages.", "quantifier": "every schedule of any number of overlapping connect() calls and anything else the gateway does, every packet, every socket error", "why_tests_cant": "the gateway may be slow, silent or restarting at any of the steps", "anchors": ["pyzwave/zipgateway.py:ZIPGateway.connect", "pyzwave/zipgateway.py:ZIPGateway.setGatewayMode", "pyzwave/zipgateway.py:ZIPGateway.setupUnsolicitedConnection"]}
{"id": "C125", "title": "The gateway is told to send unsolicited messages to this host", "statement": "The destination of unsolicited messages that connect() registers is an address of this host and a port that is listened on.", "quantifier": "every schedule and every address of the local side of the socket", "why_tests_cant": "a test runs on a host with one address and a mocked connection", "anchors": ["pyzwave/zipgateway.py:ZIPGateway.setupUnsolicitedConnection"]}
{"id": "C126", "title": "The mailbox is turned on at the gateway", "statement": "MailboxService.initialize(address, port) transmits one command that turns forwarding to this address and port on, returns True only if the gateway acknowledged it after the call, and raises without transmitting anything if the port does not fit.", "quantifier": "every address, every port, every history of the connection before and after", "why_tests_cant": "all addresses and ports, and acknowledgements of earlier commands that arrive late", "anchors": ["pyzwave/mailbox.py:MailboxService.initialize", "pyzwave/zipconnection.py:ZIPConnection.send"]}
{"id": "C127", "title": "Describing a message never raises and shows what arrived", "statement": "debugString() of every message that was decoded from a packet, or made from arguments, returns a text. The text names the command class and the command, has a line for each attribute the message got with digits that have its value, and describes an included command below it.", "quantifier": "every packet, every argument, every indentation", "why_tests_cant": "all packets of all message types, including values that enumerations do not define", "anchors": ["pyzwave/util.py:AttributesMixin.debugString", "pyzwave/message.py:Message.__repr__", "pyzwave/types.py:uint_t.__repr__"]}
{"id": "C128", "title": "A command class object is the class it was loaded for, and one listener method means one message", "statement": "The object loaded for a command class number has that number, a name no other number has, and handlers for messages of its own class only. The method of its listeners for a message is on followed by the words of the name in capitalised form; within a class different messages have different methods, and a message calls exactly the listeners that have its method.", "quantifier": "every command class number, every message, every node and everything the callbacks do", "why_tests_cant": "all numbers, known and unknown, and all pairs of messages of a class", "anchors": ["pyzwave/commandclass/CommandClass.py:CommandClass.load", "pyzwave/commandclass/CommandClass.py:CommandClass.handleMessage", "pyzwave/commandclass/CommandClass.py:UnknownCommandClass", "pyzwave/commandclass/__init__.py:CommandClassCollection"]}
{"id": "C129", "title": "What a node object holds about configuration and groups came from that node", "statement": "Parameter values, association groups and their commands in a node object were loaded or came in a report for that parameter or group from that node and end point. A complete configuration report from an end point is stored in its object with the task for it, whatever happens between, and changes nothing else.", "quantifier": "every schedule of packets, tasks, sends, node list changes and loading, every node and end point", "why_tests_cant": "messages from all nodes interleave with their tasks, and node objects are replaced while messages for them wait", "anchors": ["pyzwave/commandclass/Configuration.py:Configuration", "pyzwave/commandclass/AssociationGrpInfo.py:AssociationGrpInfo", "pyzwave/node.py:Node.handleMessage", "pyzwave/application.py:Application.messageReceived"]}
{"id": "C130", "title": "A supervised command is reported on once, to its sender", "statement": "Every report on a supervised command goes to the node and end point from which it came in a datagram, with its session id, and there is one report at most. It is sent when handling the command ends without an exception, and says whether it was handled.", "quantifier": "every schedule, every number of overlapping handlers", "why_tests_cant": "handlers wait for other nodes while more supervised commands arrive", "anchors": ["pyzwave/node.py:supervision", "pyzwave/node.py:Node.handleMessage", "pyzwave/node.py:Node.send", "pyzwave/commandclass/AssociationGrpInfo.py:AssociationGrpInfo.__groupInfoReport__"]}
{"id": "C131", "title": "The name of a group is one the node has said", "statement": "The name of an association group of a node is one that was loaded or that came in a name report for this group from this node and end point.", "quantifier": "every schedule and every packet", "why_tests_cant": "needs reports that end early, in every order", "anchors": ["pyzwave/commandclass/AssociationGrpInfo.py:AssociationGrpInfo.__groupNameReport__", "pyzwave/util.py:AttributesMixin.__setattr__"]}
{"id": "C132", "title": "What the table says of a node answers a question for that node", "statement": "The command classes, device classes and listening flag of a node in the application's table came in a node info report that carries the sequence number of a question for that node. In any case the node was listed in a node list report, and an end point has what a capability report said.", "quantifier": "every schedule of startup and node list updates over the gateway, every datagram", "why_tests_cant": "startup and updates overlap, and their queries wait for the same kind of report", "anchors": ["pyzwave/application.py:Application.loadNode", "pyzwave/application.py:Application.loadEndPointNode", "pyzwave/zipgateway.py:ZIPGateway", "pyzwave/zipconnection.py:ZIPConnection", "pyzwave/adapter.py:Adapter"]}
{"id": "C133", "title": "The controller is not one of the nodes", "statement": "If every node list report names the same controller, no node or end point of that number is in the application's table.", "quantifier": "every schedule of startup and node list updates over the gateway, every datagram, every controller id", "why_tests_cant": "needs a node list report that arrives before the gateway has been asked for one", "anchors": ["pyzwave/application.py:Application.loadNode", "pyzwave/zipgateway.py:ZIPGateway.getNodeList", "pyzwave/zipgateway.py:ZIPGateway"]}
{"id": "C134", "title": "A node that does not answer does not keep startup from announcing the others", "statement": "Once startup has ended, every node in the table has been announced to the listeners. If it ends without an exception they were told of the whole table and then of each node once, in order; if it ends with one, a listener or the adapter raised it, or a report had no usable list of command classes.", "quantifier": "every schedule with one startup, every datagram, every timeout", "why_tests_cant": "needs all combinations of nodes that answer, stay silent or answer incompletely", "anchors": ["pyzwave/application.py:Application.startup", "pyzwave/application.py:Application.loadNode", "pyzwave/zipgateway.py:ZIPGateway.getNodeInfo"]}
{"id": "C135", "title": "Startup brings up every network", "statement": "If the gateway acknowledges every packet and answers every question about its network, startup ends without an exception; the table then has the nodes of the network other than the gateway, each with its end points and what the gateway knows of them, and the listeners have been told of them all and of each of them once.", "quantifier": "every network whose reports can be used: every node mask, every device, every number of end points up to 127, every order of the set of nodes", "why_tests_cant": "needs large networks: the sequence number of the questions does not wrap around", "anchors": ["pyzwave/application.py:Application.startup", "pyzwave/application.py:Application.loadNode", "pyzwave/application.py:Application.loadEndPointNode", "pyzwave/zipgateway.py:ZIPGateway", "pyzwave/zipconnection.py:ZIPConnection", "pyzwave/adapter.py:Adapter"]}
{"id": "C136", "title": "Each group information report is followed up on its own", "statement": "When a group information report of a node is handled, the node and end point it came from is asked for the name and then for the commands of each listed group, in order, each question after the send of the one before has ended. This holds however many such reports are handled at the same time. It stops early only if a send raises; a supervised report is answered when everything has been asked.", "quantifier": "every schedule, every number of overlapping reports, every packet", "why_tests_cant": "needs reports whose handlers overlap, with sends that end in every order", "anchors": ["pyzwave/commandclass/AssociationGrpInfo.py:AssociationGrpInfo.__groupInfoReport__", "pyzwave/node.py:Node.send", "pyzwave/node.py:supervision"]}
{"id": "C137", "title": "A node list report brings the application up to date", "statement": "After startup, whenever the gateway reports a new list of nodes, the gateway's addresses and the application's table follow: nodes that are gone are removed, nodes that are still there stay as they were, and new nodes are loaded with their end points. If the gateway advertises the addresses it is asked for, acknowledges every packet and answers every question, the update ends without an exception, and the listeners have been told of what was removed and added, each once and in this order.", "quantifier": "every network before and after, every table the application may have, every header, status and sequence number of the report, every order of the sets", "why_tests_cant": "needs networks that change again and again; the sequence number of the questions does not wrap around", "anchors": ["pyzwave/application.py:Application.nodeListUpdated", "pyzwave/application.py:Application.loadNode", "pyzwave/zipgateway.py:ZIPGateway.onUnsolicitedMessage", "pyzwave/zipgateway.py:ZIPGateway.ipOfNode", "pyzwave/zipgateway.py:ZIPGateway.getNodeList", "pyzwave/zipconnection.py:ZIPConnection", "pyzwave/adapter.py:Adapter"]}
{"id": "C138", "title": "Attributes of nodes read back what was written", "statement": "Reading an attribute of a node or end point gives the value last written to it, or 0 or False. An end point has the device's attributes (basic device class, FLiRS, failing, listening) of its node at any time; setting them on the end point raises AttributeError and changes nothing.", "quantifier": "every history of loading nodes and end points and setting attributes", "why_tests_cant": "needs every order of writes to nodes and their end points", "anchors": ["pyzwave/node.py:Node", "pyzwave/node.py:NodeEndPoint", "pyzwave/application.py:Application.loadNode", "pyzwave/application.py:Application.loadEndPointNode"]}
{"id": "C139", "title": "A node that is listed as failing is marked as failing", "statement": "After startup, isFailed of a node object says whether the controller has listed the node as failing.", "quantifier": "every history of loading nodes, lists of failing nodes and setting attributes", "why_tests_cant": "a history that sets nothing shows nothing; needs all of them to see that nothing ever sets the mark", "anchors": ["pyzwave/application.py:Application.startup", "pyzwave/node.py:Node.isFailed"]}
{"id": "C140", "title": "A node that answers is heard", "statement": "sendAndReceive() on a node that has a connection: if the command is acknowledged in time and a report of the type from that node and end point arrives and is delivered within the timeout after that, the call returns a message of the type. Nothing else that happens at the same time prevents it, except another call on the object for the same type or a cancellation.", "quantifier": "every history before the call, every schedule of everything else, every command, report and header", "why_tests_cant": "needs everything that can happen between the question, the acknowledgement, the report and its delivery", "anchors": ["pyzwave/node.py:Node.sendAndReceive", "pyzwave/zipgateway.py:ZIPGateway.sendToNode", "pyzwave/zipconnection.py:ZIPConnection.send", "pyzwave/zipgateway.py:ZIPGateway.onMessageReceived", "pyzwave/application.py:Application.messageReceived", "pyzwave/util.py:MessageWaiter.messageReceived"]}
{"id": "C141", "title": "The encapsulation option says how a packet was secured", "statement": "In a packet with header options the encapsulation option gives the security class in its first byte and the CRC-16 flag in the lowest bit of its second byte. The last such option counts; what its payload is too short for is left out; without such an option there is no such entry.", "quantifier": "every list of well-formed options of known types, every header, every command", "why_tests_cant": "needs every payload length and every combination of options", "anchors": ["pyzwave/commandclass/Zip.py:ZIPPacketOptionEncapsulationFormatInfo", "pyzwave/commandclass/Zip.py:HeaderExtension.deserialize", "pyzwave/commandclass/Zip.py:ZIPPacketOption.parse_optionData"]}
{"id": "C142", "title": "Readings are the closest floats", "statement": "The value of a sensor or meter report is the float closest to the decimal number the node sent. Different numbers give different floats, equal numbers the same one, and rounding to the number of decimals that was sent gives the number back.", "quantifier": "every mantissa of up to six bytes (the standard has up to four), every precision, scale and size", "why_tests_cant": "there are more mantissas than can be tried; mantissas of seven bytes do lose digits", "anchors": ["pyzwave/types.py:float_t.deserialize", "pyzwave/commandclass/SensorMultilevel.py:Report", "pyzwave/commandclass/Meter.py:Report"]}
{"id": "C143", "title": "Startup succeeds whatever happens meanwhile, if the answers are in time", "statement": "startup() is called on a connected gateway with no other questions outstanding, with or without a list of nodes. If no acknowledgement or report is waited for in vain, startup never raises; when it has ended the table has the nodes of the network with their end points and the listeners have been told of each once. It is never stuck: from wherever it is, the rest of the answers ends it.", "quantifier": "every gateway state that can be reached, every network whose questions fit in the sequence numbers left, every schedule in which answers are in time: reports may come twice or before the acknowledgement, and other packets, other connections, keep-alives, unsolicited frames and other waiting calls may come between in any order", "why_tests_cant": "needs every interleaving of everything else with every question of startup", "anchors": ["pyzwave/application.py:Application.startup", "pyzwave/application.py:Application.loadNode", "pyzwave/zipgateway.py:ZIPGateway.getNodeList", "pyzwave/adapter.py:Adapter.sendAndReceive", "pyzwave/zipconnection.py:ZIPConnection.send", "pyzwave/util.py:MessageWaiter.messageReceived"]}
{"id": "C144", "title": "An update follows the network whatever happens meanwhile, if the answers are in time", "statement": "A node list report has been handled and the application is told (nodeListUpdated). If no acknowledgement or report is waited for in vain, the update never raises, even if further node list reports arrive; when it has ended the table has the nodes of the list at its beginning: those known before as they were, followed by the new ones with their end points; the listeners have been told of what was removed and added. It is never stuck. After startup in time, and after every update in time, the next update can begin.", "quantifier": "every state after a startup or update that ended, with whatever happened to the gateway since; every network whose new nodes' questions fit in the sequence numbers left; every schedule in which answers are in time", "why_tests_cant": "needs every interleaving of everything else, further reports included, with every question of every update", "anchors": ["pyzwave/application.py:Application.nodeListUpdated", "pyzwave/application.py:Application.loadNode", "pyzwave/application.py:Application.loadEndPointNode", "pyzwave/zipgateway.py:ZIPGateway.getNodeList", "pyzwave/zipgateway.py:ZIPGateway.onUnsolicitedMessage", "pyzwave/adapter.py:Adapter.sendAndReceive"]}
{"id": "C145", "title": "A node list report takes effect when its task begins, as a whole", "statement": "The handling of an unsolicited node list report begins in a later iteration of the event loop. Until then it has no effect on the table, the connection or the listeners, and messages are attributed by the table as it was. Afterwards everything is as if the report had arrived when its task began: nothing else is reordered, each report takes effect once, and with the order of asyncio they take effect in the order of arrival.", "quantifier": "every schedule of the gateway, and of the application on the gateway, with any number of reports waiting and anything happening between the arrival of a report and the beginning of its task", "why_tests_cant": "needs every moment at which a task can begin and everything that can arrive before it", "anchors": ["pyzwave/zipgateway.py:ZIPGateway.onUnsolicitedMessage", "pyzwave/zipgateway.py:ZIPGateway.__handleNodeListReport__"]}
{"id": "C146", "title": "A node that answers is interviewed completely", "statement": "If a node answers each question for the version of a class with that version and the interviews of its classes do not fail, then Node.interview() does not raise and can always be completed, and when it has returned every class has the version the node has and is marked as interviewed, unless it is being interviewed again.", "quantifier": "every node with any number of classes, every schedule, also if interviews of the node and of single classes and requests for versions overlap", "why_tests_cant": "needs every interleaving of overlapping interviews with the answers", "anchors": ["pyzwave/node.py:Node.interview", "pyzwave/commandclass/CommandClass.py:interviewDecorator", "pyzwave/commandclass/CommandClass.py:CommandClass.requestVersion"]}
{"id": "C147", "title": "ask() gives the answers of all listeners", "statement": "ask() comes to every listener once, in the order in which they were registered, also to those registered while it tells the others. It returns the answers of all that have the method and did not raise, in that order, as soon as the last coroutine has ended, however long each takes. If a coroutine raises, ask() raises what the first one raised, and the others run to their end.", "quantifier": "every schedule of any number of listeners, calls of ask() that overlap, coroutines that await for any time, and registrations at any time", "why_tests_cant": "needs every order in which coroutines of several calls can end and listeners can be registered", "anchors": ["pyzwave/util.py:Listenable.ask", "pyzwave/util.py:Listenable.speak", "pyzwave/util.py:Listenable.addListener"]}
{"id": "C148", "title": "A class that is marked as interviewed has its answers", "statement": "If the interview of a command class ends in a way that marks the class as interviewed, then everything it asked the node was answered and everything it sent was acknowledged.", "quantifier": "every command class with an interview of its own, every sequence of answers, exceptions and acknowledgements, and anything that happens to the attributes of the class meanwhile", "why_tests_cant": "needs every combination of answers that do not come or are about something else", "anchors": ["pyzwave/commandclass/Association.py:Association.interview", "pyzwave/commandclass/AssociationGrpInfo.py:AssociationGrpInfo.interview", "pyzwave/commandclass/SensorMultilevel.py:SensorMultilevel.interview", "pyzwave/commandclass/Version.py:Version.interview", "pyzwave/commandclass/ManufacturerSpecific.py:ManufacturerSpecific.interview", "pyzwave/commandclass/ZwavePlusInfo.py:ZwavePlusInfo.interview"]}
{"id": "C149", "title": "A class that is marked as interviewed has been interviewed", "statement": "If a command class is marked as interviewed and was not loaded so, then one of its interviews has ended well, and what that interview asked and sent is what it does with the answers it got; if the class is Version, ManufacturerSpecific, ZwavePlusInfo or SensorMultilevel it got an answer to everything it asked. Version, manufacturer and Z-Wave Plus information is what the reports said that came as answers, one after the other, and if the latest one is complete it is this report as a whole.", "quantifier": "every schedule of any number of overlapping interviews and requests for the version, loading, and every answer and exception", "why_tests_cant": "needs every interleaving of interviews that write the same attributes", "anchors": ["pyzwave/commandclass/CommandClass.py:interviewDecorator", "pyzwave/commandclass/CommandClass.py:CommandClass.requestVersion", "pyzwave/commandclass/Version.py:Version.interview", "pyzwave/commandclass/ManufacturerSpecific.py:ManufacturerSpecific.interview", "pyzwave/commandclass/ZwavePlusInfo.py:ZwavePlusInfo.interview", "pyzwave/commandclass/SensorMultilevel.py:SensorMultilevel.interview"]}
{"id": "C150", "title": "The scales of a sensor are those of this sensor", "statement": "The scales that a SensorMultilevel object holds for a sensor have been reported by the node for this sensor.", "quantifier": "every schedule of any number of overlapping interviews, every answer and exception", "why_tests_cant": "needs an answer that comes when another sensor is being asked for", "anchors": ["pyzwave/commandclass/SensorMultilevel.py:SensorMultilevel.interview"]}
{"id": "C151", "title": "Interviews raise only what their requests raise", "statement": "If the reports a node answers with are complete, then the interview of a command class raises nothing but what one of its own requests or sends raised.", "quantifier": "every command class with an interview of its own (Version, ManufacturerSpecific, ZwavePlusInfo, SensorMultilevel, Association), every schedule of overlapping interviews and requests for the version, every complete report and every exception", "why_tests_cant": "needs an interleaving of two interviews in which one changes what the other iterates over", "anchors": ["pyzwave/commandclass/Association.py:Association.interview", "pyzwave/commandclass/Association.py:Groupings.setNumGroups", "pyzwave/commandclass/SensorMultilevel.py:SensorMultilevel.interview", "pyzwave/commandclass/Version.py:Version.interview", "pyzwave/commandclass/ManufacturerSpecific.py:ManufacturerSpecific.interview", "pyzwave/commandclass/ZwavePlusInfo.py:ZwavePlusInfo.interview"]}
{"id": "C152", "title": "What a class holds about a node came from that node", "statement": "Whatever an interview of a command class takes for an answer came in a datagram from the node and end point of the class, has the type that was asked for, and the question was sent to this node and end point and acknowledged; a command that an interview takes for sent was acknowledged by the node. So the version of a class, version, manufacturer and Z-Wave Plus information, the scales of sensors and the nodes of association groups are what this node has reported or what was there before, and the nodes of a group were reported for this group.", "quantifier": "every history of the gateway, its connections and the table of nodes, with any number of overlapping interviews of the class, of other classes of the node and of other nodes", "why_tests_cant": "needs the interleavings of interviews of several nodes with the datagrams of all of them", "anchors": ["pyzwave/commandclass/CommandClass.py:interviewDecorator", "pyzwave/commandclass/CommandClass.py:CommandClass.requestVersion", "pyzwave/commandclass/CommandClass.py:CommandClass.sendAndReceive", "pyzwave/node.py:Node.sendAndReceive", "pyzwave/node.py:Node.send", "pyzwave/commandclass/Version.py:Version.interview", "pyzwave/commandclass/ManufacturerSpecific.py:ManufacturerSpecific.interview", "pyzwave/commandclass/ZwavePlusInfo.py:ZwavePlusInfo.interview", "pyzwave/commandclass/SensorMultilevel.py:SensorMultilevel.interview", "pyzwave/commandclass/Association.py:Association.interview"]}
{"id": "C153", "title": "Interviews end also when nothing arrives any more", "statement": "Whatever has happened before, every call of interview() or requestVersion() of a command class can come to its end without any further datagram or call: when time passes, timers fire and coroutines have their turns, all of the calls end, whether sockets that are being opened can be opened or not. No call can be stuck for good, be it while the address of the node is looked up, while the connection is opened, before the acknowledgement or before the answer.", "quantifier": "every history of the gateway, its connections and the table of nodes, every command class, any number of overlapping interviews and requests for the version at any stage", "why_tests_cant": "needs every reachable state, in particular calls that share futures, sequence numbers and sessions with others that were cancelled or timed out", "anchors": ["pyzwave/commandclass/CommandClass.py:interviewDecorator", "pyzwave/commandclass/CommandClass.py:CommandClass.requestVersion", "pyzwave/node.py:Node.sendAndReceive", "pyzwave/zipgateway.py:ZIPGateway.sendToNode", "pyzwave/zipgateway.py:ZIPGateway.connectToNode", "pyzwave/adapter.py:Adapter.waitForAck", "pyzwave/util.py:MessageWaiter.waitForMessage"]}
{"id": "C154", "title": "Calls of the gateway end also when nothing arrives any more", "statement": "Whatever has happened before, every coroutine of the gateway (network management calls, setGatewayMode, the node list part of setupUnsolicitedConnection, connectToNode and the handling of node list reports) can come to its end without any further datagram or call: when time passes, timers fire and coroutines have their turns, all of them end, whether sockets that are being opened can be opened or not.", "quantifier": "every history of the gateway and its connections, any number of overlapping calls at any stage", "why_tests_cant": "needs every reachable state, in particular calls that share futures, sequence numbers and sessions with others that were cancelled or timed out, and node lists of any length", "anchors": ["pyzwave/zipgateway.py:ZIPGateway.getNodeList", "pyzwave/zipgateway.py:ZIPGateway.setGatewayMode", "pyzwave/zipgateway.py:ZIPGateway.setupUnsolicitedConnection", "pyzwave/zipgateway.py:ZIPGateway.connectToNode", "pyzwave/zipgateway.py:ZIPGateway.__handleNodeListReport__", "pyzwave/zipgateway.py:ZIPGateway.ipOfNode", "pyzwave/adapter.py:Adapter.sendAndReceive", "pyzwave/adapter.py:Adapter.waitForAck", "pyzwave/util.py:MessageWaiter.waitForMessage"]}
{"id": "C155", "title": "Startup and updates end also when nothing arrives any more", "statement": "Whatever has happened before, every call of Application.startup() and Application.nodeListUpdated() can come to its end without any further datagram or call: when time passes, timers fire, coroutines have their turns and listeners answer what they are asked, all of the calls end, whether listeners answer or raise.", "quantifier": "every history of the gateway and the application, any number of overlapping calls of startup() and nodeListUpdated() at any stage, node lists and numbers of end points of any size", "why_tests_cant": "needs every reachable state of overlapping updates, and answers that come while others are awaited", "anchors": ["pyzwave/application.py:Application.startup", "pyzwave/application.py:Application.nodeListUpdated", "pyzwave/application.py:Application.loadNode", "pyzwave/application.py:Application.loadEndPointNode", "pyzwave/zipgateway.py:ZIPGateway.getNodeList", "pyzwave/zipgateway.py:ZIPGateway.getNodeInfo", "pyzwave/zipgateway.py:ZIPGateway.getMultiChannelEndPoints", "pyzwave/zipgateway.py:ZIPGateway.getMultiChannelCapability", "pyzwave/zipgateway.py:ZIPGateway.getFailedNodeList"]}
{"id": "C156", "title": "Interviewing a node asks the node, class by class, and what the classes hold came from it", "statement": "When Node.interview() returns, every supported class has been interviewed by it in order, each by a call of interview() that has ended, none with an exception other than a timeout; if it raises, it raises what the interview of one class raised and the classes after that have not been interviewed by it. Whatever these interviews take for answers, and the versions of all the classes, came in datagrams from the node and end point, after questions that were sent there and acknowledged. Other classes of the node that are interviewed at the same time, through the same node object, change nothing of this: what happens to one class is always something that can happen to a class that is alone.", "quantifier": "every history of the gateway, its connections and the table of nodes, nodes with any number of classes of any kind, any number of overlapping calls of Node.interview() and of interviews of single classes", "why_tests_cant": "needs the interleavings of interviews of all classes of a node, which share the sessions of one node object", "anchors": ["pyzwave/node.py:Node.interview", "pyzwave/node.py:Node.sendAndReceive", "pyzwave/node.py:Node.send", "pyzwave/commandclass/CommandClass.py:interviewDecorator", "pyzwave/commandclass/CommandClass.py:CommandClass.requestVersion", "pyzwave/zipgateway.py:ZIPGateway.sendToNode"]}
{"id": "C157", "title": "Interviews of nodes end also when nothing arrives any more", "statement": "Whatever has happened before, every call of Node.interview() can come to its end without any further datagram or call: when time passes, timers fire and coroutines have their turns, all of the calls end and all interviews of its classes, whether sockets that are being opened can be opened or not.", "quantifier": "every history of the gateway, its connections and the table of nodes, nodes with any number of classes of any kind, any number of overlapping calls of Node.interview() and of interviews of single classes at any stage", "why_tests_cant": "needs every reachable state of overlapping interviews of all classes of a node", "anchors": ["pyzwave/node.py:Node.interview", "pyzwave/node.py:Node.sendAndReceive", "pyzwave/commandclass/CommandClass.py:interviewDecorator", "pyzwave/commandclass/CommandClass.py:CommandClass.requestVersion", "pyzwave/zipgateway.py:ZIPGateway.sendToNode", "pyzwave/util.py:MessageWaiter.waitForMessage"]}
{"id": "C158", "title": "One class does not keep the other classes of a node from being interviewed", "statement": "When a call of Node.interview() has ended, however it ended, it has interviewed every class the node supports: a class whose report is malformed, or whose questions fail, does not keep the following classes from being interviewed.", "quantifier": "every history of the gateway, its connections and the table of nodes, nodes with any number of classes of any kind, any reports of the node", "why_tests_cant": "needs malformed reports and failing connections at every stage of interviews of nodes with several classes", "anchors": ["pyzwave/node.py:Node.interview", "pyzwave/commandclass/CommandClass.py:interviewDecorator", "pyzwave/commandclass/ManufacturerSpecific.py:ManufacturerSpecific.interview", "pyzwave/zipgateway.py:ZIPGateway.connectToNode"]}
{"id": "C159", "title": "Connecting to the gateway ends also when nothing arrives any more", "statement": "Whatever has happened before, every call of ZIPGateway.connect() can come to its end without any further datagram or call: when time passes, timers fire and coroutines have their turns, all of the calls end, whether the sockets of the connection and of the listener can be opened or not.", "quantifier": "every history of the gateway and its connection, any number of overlapping calls of connect() and of the other coroutines of the gateway at any stage", "why_tests_cant": "needs every reachable state of overlapping calls of connect() and of everything they await", "anchors": ["pyzwave/zipgateway.py:ZIPGateway.connect", "pyzwave/zipgateway.py:ZIPGateway.setGatewayMode", "pyzwave/zipgateway.py:ZIPGateway.setupUnsolicitedConnection", "pyzwave/zipgateway.py:ZIPGateway.getNodeList", "pyzwave/zipconnection.py:ZIPConnection.connect", "pyzwave/zipconnection.py:ZIPConnection.send"]}
{"id": "C160", "title": "What the mailbox holds and sends came from nodes", "statement": "Every entry the mailbox stores was pushed by a node in a datagram, to the queue it is stored for, and this node has acknowledged the message that says that the entry waits. Every message of the mailbox is given to sendToNode; an entry in it was pushed to its queue in a datagram. What tells a node that an entry waits goes to the node that pushed it, and an answer goes only to a node that asked for one in a datagram. Heartbeats for an entry end only after a node acknowledged the message that hands the entry out, or when sending a heartbeat raised.", "quantifier": "every history of the gateway and its connections, any number of nodes, overlapping handlers of the mailbox and other calls of sendToNode", "why_tests_cant": "needs the interleavings of datagrams of all nodes with the handlers, heartbeats and acknowledgements of the mailbox", "anchors": ["pyzwave/mailbox.py:MailboxService.messageReceived", "pyzwave/mailbox.py:MailboxService.__pushQueue__", "pyzwave/mailbox.py:MailboxService.__popQueue__", "pyzwave/mailbox.py:QueueItem._runner", "pyzwave/zipgateway.py:ZIPGateway.sendToNode", "pyzwave/zipgateway.py:ZIPGateway.onMessageReceived", "pyzwave/zipgateway.py:ZIPGateway.onUnsolicitedMessage"]}
{"id": "C161", "title": "An entry of the mailbox is handed only to the node that pushed it", "statement": "If the mailbox hands an entry of a queue out to a node, then this node has pushed the entry to the queue in a datagram.", "quantifier": "every history of the gateway and its connections, any number of nodes with queues of any numbers, overlapping handlers of the mailbox", "why_tests_cant": "needs several nodes that use the mailbox, with equal numbers of queues", "anchors": ["pyzwave/mailbox.py:MailboxService.__popQueue__", "pyzwave/mailbox.py:MailboxService.__pushQueue__", "pyzwave/mailbox.py:MailboxService.messageReceived"]}
{"id": "C162", "title": "Handlers of the mailbox end also when nothing arrives any more", "statement": "Whatever has happened before, every handler of a message for the mailbox, and every send of a heartbeat, can come to its end without any further datagram or call: when time passes, timers fire and coroutines have their turns, all of them end, whether sockets that are being opened can be opened or not.", "quantifier": "every history of the gateway and its connections, any number of overlapping handlers and heartbeats of the mailbox at any stage", "why_tests_cant": "needs every reachable state of overlapping handlers and heartbeats and of the connections to all nodes", "anchors": ["pyzwave/mailbox.py:MailboxService.messageReceived", "pyzwave/mailbox.py:MailboxService.__pushQueue__", "pyzwave/mailbox.py:MailboxService.__popQueue__", "pyzwave/mailbox.py:QueueItem._runner", "pyzwave/zipgateway.py:ZIPGateway.sendToNode"]}
{"id": "C163", "title": "What is known of a class after restarts came from the node", "statement": "However often the program is started again, with files of nodes that it has written itself: the version of a class is unknown or was in a version report of the node and end point, in this run or an earlier one, after a question for the version of this class that was sent and acknowledged; each value of Version, ManufacturerSpecific and ZwavePlusInfo was in a report of the node, in this run or an earlier one; and so were the scales of sensors of SensorMultilevel.", "quantifier": "any number of runs, in each of them every history of the gateway and its connections, with files loaded and written at any time, every YAML library that reads what it writes", "why_tests_cant": "needs histories of several runs of the program that hand state to each other through files, with all interleavings of interviews in each of them", "anchors": ["pyzwave/persistantstorage.py:YamlStorage.nodeAdded", "pyzwave/persistantstorage.py:YamlStorage.nodeUpdated", "pyzwave/commandclass/CommandClass.py:interviewDecorator", "pyzwave/commandclass/CommandClass.py:CommandClass.requestVersion", "pyzwave/commandclass/SensorMultilevel.py:SensorMultilevel.interview"]}
{"id": "C164", "title": "A class that is marked as interviewed after a restart has been interviewed", "statement": "However often the program is started again, with files of nodes that it has written itself: a class is marked as interviewed only if an interview of it has ended without an exception, in this run or an earlier one.", "quantifier": "any number of runs, in each of them every history of the gateway and its connections, with files loaded and written at any time, every YAML library that reads what it writes", "why_tests_cant": "needs a program that ends between the interviews of the classes of a node and is started again", "anchors": ["pyzwave/persistantstorage.py:YamlStorage.nodeAdded", "pyzwave/persistantstorage.py:YamlStorage.nodeUpdated", "pyzwave/commandclass/CommandClass.py:interviewDecorator", "pyzwave/node.py:Node.interview"]}
{"id": "C165", "title": "A send that takes long does not make later ones fail", "statement": "If no call is cancelled and fewer than 256 calls of send() are outstanding on a connection, then a call of send() with a command that can be composed does not raise at once.", "quantifier": "every history of a connection, with any number of sends, responses that say that a packet is queued, and acknowledgements in any order", "why_tests_cant": "needs hundreds of sends while one is outstanding", "anchors": ["pyzwave/zipconnection.py:ZIPConnection.send", "pyzwave/adapter.py:Adapter.waitForAck", "pyzwave/adapter.py:Ack.wait", "pyzwave/adapter.py:Ack.queued"]}
{"id": "C166", "title": "A send is not ended by the acknowledgement of a later packet", "statement": "If send() has returned True, then an acknowledgement with the number of its packet has arrived after it was called and before another packet was sent with the same number.", "quantifier": "every history of a connection, with any number of sends, responses that say that a packet is queued, and acknowledgements in any order", "why_tests_cant": "needs hundreds of sends while one is outstanding", "anchors": ["pyzwave/zipconnection.py:ZIPConnection.send", "pyzwave/adapter.py:Adapter.waitForAck", "pyzwave/adapter.py:Adapter.ackReceived"]}
{"id": "C167", "title": "Sends that have ended do not make later ones fail", "statement": "If all calls of send() on a connection have ended, by returning, raising or being cancelled, then a call of send() with a command that can be composed does not raise at once.", "quantifier": "every history of a connection, with any number of sends, any of which may be cancelled at any time", "why_tests_cant": "needs a send that is cancelled and hundreds of sends after it", "anchors": ["pyzwave/zipconnection.py:ZIPConnection.send", "pyzwave/adapter.py:Adapter.waitForAck", "pyzwave/mailbox.py:QueueItem.stop"]}
{"id": "C168", "title": "An entry that waits is announced", "statement": "Every entry that the mailbox stores has a heartbeat that goes on: its node is told again and again that the entry waits, until the entry is handed out.", "quantifier": "every history of the gateway, its connections and the mailbox, with any datagrams, timeouts, cancelled calls and other calls of sendToNode()", "why_tests_cant": "needs a stored entry and an acknowledgement that arrives at the moment of its timeout, or hundreds of sends to its node while one is outstanding", "anchors": ["pyzwave/mailbox.py:QueueItem._runner", "pyzwave/mailbox.py:MailboxService.__pushQueue__", "pyzwave/mailbox.py:MailboxService.__popQueue__", "pyzwave/zipgateway.py:ZIPGateway.sendToNode", "pyzwave/adapter.py:Adapter.waitForAck"]}
