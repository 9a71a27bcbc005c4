#!/usr/bin/env python3
"""Writes /verif/properties.jsonl. Kept as a script so that ids stay consecutive."""
import json, os
P = []
def p(title, statement, quantifier, why, anchors):
    P.append(dict(id="C%02d" % (len(P) + 1), title=title, statement=statement,
                  quantifier=quantifier, why_tests_cant=why, anchors=anchors))

T = "pyzwave/types.py"; M = "pyzwave/message.py"; U = "pyzwave/util.py"; A = "pyzwave/adapter.py"
ZC = "pyzwave/zipconnection.py"; ZG = "pyzwave/zipgateway.py"; N = "pyzwave/node.py"; AP = "pyzwave/application.py"
MB = "pyzwave/mailbox.py"; PS = "pyzwave/persistantstorage.py"; CC = "pyzwave/commandclass/"

# ---- codec
p("Bit reads follow the stream's bit order",
  "BitStreamReader.bits(n) called at any position returns the unsigned number spelled by the next n bits of the buffer, most significant bit first, and moves the position by exactly n bits, as long as the n bits lie inside one byte; bits read twice without advancing are equal.",
  "every buffer, every start position, every size 0..8 that does not cross a byte boundary",
  "a test reads a handful of offsets in a handful of buffers; the claim is about all of them",
  [T + ":BitStreamReader.bits", T + ":BitStreamReader.bit"])
p("Byte reads never return short data",
  "BitStreamReader.value(n) returns exactly the next n bytes and moves n bytes forward, and if fewer than n bytes are left it raises EOFError; byte() and bits() raise EOFError in the same situation; peeking never moves the position.",
  "every buffer, position and requested length",
  "needs every length/position combination, including those at and past the end",
  [T + ":BitStreamReader.value", T + ":BitStreamReader.byte", T + ":BitStreamReader.peekValue"])
p("Bit writes append exactly the written bits",
  "Writing in-range values with addBits so that no value crosses a byte boundary produces a byte string whose bits are the concatenation of the written values, most significant bit first, zero padded to a whole byte; an earlier field is never altered by a later one.",
  "every sequence of addBits/addBytes calls of any length with in-range values",
  "interactions between fields depend on the whole preceding sequence",
  [T + ":BitStreamWriter.addBits", T + ":BitStreamWriter.addBytes"])
p("Whole-byte integers are never truncated",
  "Serialising an integer attribute (uint8/16/32, HomeID, int24) either writes exactly its big-endian two's complement representation of the declared size or raises OverflowError; it raises precisely for the values outside the type's range.",
  "every integer, for every declared size and signedness",
  "the input space is infinite and the interesting points are the two boundaries of each type",
  [T + ":int_t.serialize", T + ":BitStreamWriter.addBytes"])
p("Integer attributes round-trip",
  "Deserialising what was serialised gives the same integer back, for each whole-byte integer type and each sub-byte type, and deserialising consumes exactly the bytes (bits) written.",
  "every in-range integer and every integer type of the library, at any position in a stream",
  "65536 to 2^32 values per type",
  [T + ":int_t", T + ":uint3_t", T + ":uint4_t", T + ":uint5_t", T + ":uint7_t", T + ":BitsBase"])
p("Messages round-trip through the wire format",
  "For every registered message type whose attributes can all be encoded and decoded symmetrically, and every assignment of in-range values to its attributes, compose() succeeds and Message.decode() of the result is a message of the same type in which every non-reserved attribute reads back the value that was set.",
  "every symmetric registered message type, every in-range assignment of its attributes (including nested messages and variable-length payloads of any size)",
  "unit tests use a few literal messages; payload length and nesting are unbounded",
  [M + ":Message.compose", M + ":Message.decode", U + ":AttributesMixin.parseAttributes"])
p("Wire layout of every composable message",
  "compose() of each composable message type emits the command class byte, the command byte and then each attribute at its documented bit offset and width, in declaration order, for all in-range attribute values.",
  "every composable registered message type and every in-range assignment",
  "a golden-bytes test fixes one assignment per message",
  [M + ":Message.compose", CC + "*.py"])
p("Message ids are unique and decode to their own type",
  "No two registered message types share a (command class, command) pair; decoding bytes that start with a registered pair gives a message of exactly that type (or raises), decoding any other pair gives an unknown message that still reports that command class and command, and decoding fewer than two bytes gives the unknown message 0.",
  "every registered type and every byte string",
  "a clash silently shadows a type; tests only look up the types they know",
  [CC + "__init__.py:CommandClassMessageCollection", M + ":Message.deserialize", M + ":UnknownMessage"])
p("Decoding always terminates",
  "Message.decode() of any byte string returns a message or raises an exception after a number of steps bounded by the input; no input makes one of the parser loops run forever, and the nesting depth of the recursion is bounded by the input length.",
  "every byte string of any length",
  "a hang needs one adversarial packet out of infinitely many",
  [M + ":Message.deserialize", CC + "Zip.py:HeaderExtension.deserialize", CC + "NodeProvisioning.py:MetadataExtension.deserialize", CC + "SensorMultilevel.py:SensorSupported.deserialize"])
p("compose() fails instead of guessing",
  "compose() raises AttributeError when an attribute without a default has not been set, and raises ValueError when an attribute type has no encoder; it never emits bytes for a message with a missing required attribute.",
  "every message type and every subset of set attributes",
  "2^n subsets per message type",
  [M + ":Message.compose"])
p("Decoded packets re-encode to the same bytes",
  "If a packet decodes to a message then compose() of that message gives the packet back.",
  "every byte string accepted by Message.decode",
  "depends on reserved bits, trailing bytes and repeated attribute names the tests never set",
  [M + ":Message.compose", M + ":Message.decode", U + ":AttributesMixin.__setattr__"])
p("An out-of-range sub-byte value cannot corrupt its neighbours",
  "Setting a sub-byte attribute (flag, bits, uint3/4/5/7) to a value that does not fit either raises when the message is composed or leaves all other attributes of the composed message unchanged.",
  "every integer assigned to every sub-byte attribute",
  "infinite values; corruption shows only in the neighbouring field",
  [T + ":BitStreamWriter.addBits", T + ":flag_t"])
p("Acknowledge packets answer the packet they are for",
  "ZipPacket.response() carries the sequence number of the original packet, swaps source and destination end points, sets exactly the requested ack/nack flags, carries no command, and survives composing and decoding.",
  "every decoded or constructed Z/IP packet and every combination of response arguments",
  "field combinations (endpoints x flags x sequence numbers) are too many to enumerate by hand",
  [CC + "Zip.py:ZipPacket.response"])
p("Expected delay is read from the header extension",
  "For a Z/IP packet whose header extension contains any sequence of well-formed known options, headerExtension.expectedDelay equals the signed 24 bit number of the last expected-delay option, and is 0 if there is none.",
  "every list of options, every option payload, every 24 bit delay",
  "option order, count and payload lengths are unbounded",
  [CC + "Zip.py:HeaderExtension", CC + "Zip.py:ZIPPacketOption.parse_optionData"])
p("Unsupported or malformed header options never produce a message",
  "A Z/IP packet whose header extension contains an option of unsupported type (with payload) or runs past its declared length raises from decode; it is never delivered with a misread command.",
  "every packet with such an option at any place in the option list",
  "adversarial packets",
  [CC + "Zip.py:ZIPPacketOption.parse_optionData", CC + "Zip.py:HeaderExtension.deserialize"])
p("Association node lists round-trip on the wire",
  "Decoding an encoded association node list gives the single-channel nodes followed by the multi-channel nodes, each group in its original order, for all node ids 1..255 (and any end point); hence lists already in that order come back unchanged.",
  "every list of nodes of any length",
  "list length and interleaving are unbounded",
  [CC + "Association.py:Nodes.serialize", CC + "Association.py:Nodes.deserialize"])
p("Association node lists survive persistence",
  "Nodes.__setstate__(Nodes.__getstate__()) applied to an empty list gives the same list of (node, end point) pairs back, also after the state has been turned into strings by YAML.",
  "every node list of any length with any natural ids",
  "string formatting and parsing over unbounded integers",
  [CC + "Association.py:Nodes.__getstate__", CC + "Association.py:Nodes.__setstate__"])
p("Node list bitmap is decoded bit by bit",
  "After decoding a node list report, node n (1..224) is in the list exactly if bit (n-1) mod 8 of mask byte (n-1) div 8 is set; reports with a shorter mask raise EOFError.",
  "every 28 byte mask and every node number",
  "2^224 masks",
  [CC + "NetworkManagementProxy.py:NodeList.deserialize"])
p("Every legal node id can be reported",
  "Every Z-Wave node id 1..232 can appear in a decoded node list.",
  "every node id 1..232 and every report",
  "absence of a value from every possible report cannot be shown by running reports",
  [CC + "NetworkManagementProxy.py:NodeList.deserialize"])
p("Supported sensor bitmap is decoded byte-wise",
  "After decoding a supported sensor report, sensor type t is in the set exactly if bit (t-1) mod 8 of byte (t-1) div 8 of the mask is set.",
  "every mask of any length with only known sensor types",
  "masks of any length",
  [CC + "SensorMultilevel.py:SensorSupported.deserialize"])
p("DSK text form round-trips",
  "Reading the text form of a 16 byte DSK into a new DSK gives the same 16 bytes; the text is 8 groups of 5 decimal digits; text with another number of groups leaves the DSK unchanged, and raw keys of a length other than 0 or 16 are rejected.",
  "all 2^128 keys and all text inputs",
  "2^128 keys",
  [T + ":dsk_t"])
p("Scaled sensor values decode to mantissa / 10^precision",
  "Decoding a scaled value gives the signed big-endian mantissa of the given size divided by 10^precision with the transmitted scale, and consumes 1 + size bytes.",
  "every precision, scale, size and mantissa",
  "size up to 7 bytes",
  [T + ":float_t.deserialize"])
p("Configuration values are encoded with their declared size",
  "A Configuration.Set with size s and value v composes to s big-endian value bytes exactly if 0 <= v < 256^s, otherwise composing raises OverflowError; a Configuration.Report with size s yields the unsigned big-endian number of its s value bytes.",
  "every parameter, size 0..7 and every integer value",
  "infinite values",
  [CC + "Configuration.py:Set.compose_value", CC + "Configuration.py:Report.parse_value"])
p("Supervised commands round-trip",
  "Composing a Supervision.Get around any command and decoding it gives a Supervision.Get around that command.",
  "every session id and every inner command",
  "inner command is unbounded",
  [CC + "Supervision.py:Get"])
p("Command class lists of added nodes are read within the report",
  "The command class list of a NodeAddStatus contains nodeInfoLength-7 bytes of the report, or all remaining bytes if fewer are present, and never anything outside the report.",
  "every report",
  "length byte vs. actual length combinations",
  [CC + "NetworkManagementInclusion.py:NodeAddStatus.parse_commandClass"])
p("Group reports parse every advertised entry",
  "A group command list report of advertised (even) length n yields the n/2 consecutive (class, command) pairs; a group info report yields groupCount groups whose identifier, mode, profile and event code are read from consecutive 7 byte records; a truncated command list raises EOFError.",
  "every count and every payload",
  "counts up to 63/255 with arbitrary payload",
  [CC + "AssociationGrpInfo.py:GroupCommandListReport.parse_commandClass", CC + "AssociationGrpInfo.py:GroupInfoReport.parse_groups"])
p("Failing-node notifications accept both encodings",
  "A mailbox NodeFailing message yields the queue handle both when it is sent as a single byte and when it is sent as a 16 byte address ending in the handle.",
  "every handle and every 15 byte prefix",
  "2^120 prefixes",
  [CC + "Mailbox.py:NodeFailing.parse_queueHandle"])
p("Smart start metadata is decoded entry by entry",
  "A provisioning list report yields, for each known metadata type present, exactly the bytes of its last entry; an unknown metadata type raises.",
  "every list of metadata entries",
  "unbounded number and size of entries",
  [CC + "NodeProvisioning.py:MetadataExtension.deserialize"])
# ---- acks / connection
p("send() succeeds only on a matching acknowledgement",
  "ZIPConnection.send() returns True only if, after it transmitted its packet and before its timeout, an acknowledge packet with the sequence number of that packet was received.",
  "every interleaving of any number of concurrent sends, acks, nacks and timeouts",
  "schedules are unbounded",
  [ZC + ":ZIPConnection.send", A + ":Adapter.waitForAck", A + ":Adapter.ackReceived"])
p("A matching acknowledgement completes send()",
  "If an acknowledge packet with the sequence number of an outstanding send() arrives before its timeout then that send() returns True, and it affects no other outstanding send().",
  "every interleaving",
  "schedules are unbounded",
  [A + ":Adapter.ackReceived", A + ":Ack"])
p("A queued response neither completes nor fails send()",
  "A 'waiting' negative acknowledgement keeps the send() pending and re-arms its timeout to the expected delay plus 60 s (180 s if the delay is negative), however many such responses arrive; only a later ack makes it return True.",
  "every number and order of waiting responses and delays",
  "unbounded repetition",
  [A + ":Ack.queued", A + ":Ack.wait"])
p("No acknowledgement state is left behind",
  "When a send() has returned or timed out, its sequence number is no longer registered as outstanding, so the number can be used again after wrap-around.",
  "every history of sends, acks and timeouts",
  "a leak only bites after 256 sends",
  [A + ":Adapter.waitForAck"])
p("Sequence numbers",
  "Sequence numbers of consecutive packets are consecutive modulo 256, always fit the 8 bit field, and any 256 consecutive sends use pairwise different numbers; a send whose number is still outstanding raises instead of waiting for the wrong ack.",
  "every number of sends from every state",
  "wrap-around needs hundreds of sends in a particular pattern",
  [ZC + ":ZIPConnection.send", A + ":Adapter.waitForAck"])
p("Undecodable packets have no effect",
  "A received packet that cannot be decoded changes no state, delivers nothing to listeners and is reported as not handled.",
  "every byte string for which decoding raises",
  "infinitely many malformed packets",
  [ZC + ":ZIPConnection.onPacket"])
p("Received packets are dispatched by kind",
  "onPacket() treats an ack (or a waiting nack) as an acknowledgement and never as a command; a packet that is neither ack, nack nor ack-request and includes a command is delivered exactly once, either to a waiting caller or to the listeners; other nacks, ack requests, keep-alives and unknown packets are never delivered.",
  "every decoded packet and every connection state",
  "2^8 flag combinations times arbitrary payload and state",
  [ZC + ":ZIPConnection.onPacket", A + ":Adapter.commandReceived"])
p("A waiting nack without header extension is handled",
  "A waiting negative acknowledgement for an outstanding send never raises out of onPacket, whatever optional parts it carries.",
  "every packet with the waiting flags set",
  "requires the particular truncated shape",
  [A + ":Adapter.ackReceived", CC + "Zip.py:HeaderExtension.expectedDelay"])
p("Exactly one keep-alive timer",
  "After connect(), at every moment exactly one keep-alive timer is armed, and it is re-armed to 25 s by every send and every keep-alive.",
  "every history of sends and timer expirations",
  "timers accumulate only over long histories",
  [ZC + ":ZIPConnection.resetKeepAlive", ZC + ":ZIPConnection.keepAlive"])
# ---- message waiting
p("Waiters only get messages of the requested type",
  "waitForMessage(T) and sendAndReceive(_, T) never return a message of another type.",
  "every interleaving of waiters, messages and timeouts",
  "schedules are unbounded",
  [U + ":MessageWaiter"])
p("A message is consumed by at most one waiting session",
  "Each received message resolves at most one waiting session, and exactly when a session for its type is registered it is reported as handled; a session is resolved at most once.",
  "every interleaving",
  "schedules are unbounded",
  [U + ":MessageWaiter.messageReceived"])
p("Adapter.sendAndReceive does not miss an early reply",
  "If the reply to Adapter.sendAndReceive arrives at any time after the call (even before the transmission has been acknowledged) and before the timeout, and no other caller waits for that message type, the call returns that reply.",
  "every schedule of ack, reply and unrelated traffic",
  "race between ack and reply",
  [A + ":Adapter.sendAndReceive", U + ":MessageWaiter.addWaitingSession"])
p("Node.sendAndReceive does not miss an early reply",
  "The same guarantee for Node.sendAndReceive.",
  "every schedule of ack, reply and unrelated traffic",
  "race between ack and reply",
  [N + ":Node.sendAndReceive"])
p("Waiters do not disturb each other",
  "The completion or timeout of one waiter for a message type never makes another waiter for the same type miss a message or fail.",
  "every interleaving of two or more waiters",
  "races",
  [U + ":MessageWaiter.waitForMessage"])
# ---- gateway
p("Network management commands keep working",
  "Network management commands (node list, node info, add/remove ...) can be issued any number of times over the life of a gateway connection.",
  "every number of previously issued commands",
  "needs more than 255 commands on one connection",
  [ZG + ":ZIPGateway._nmSeq"])
p("Gateway node table equals the latest node list",
  "After an unsolicited node list report has been processed, getNodeList() returns exactly the nodes of that report, each known node keeps its address, and listeners are told once.",
  "every previous table and every report",
  "all pairs of tables",
  [ZG + ":ZIPGateway.__handleNodeListReport__", ZG + ":ZIPGateway.getNodeList"])
p("Unsolicited messages are attributed to the sender's node",
  "An unsolicited packet is delivered to listeners under a node id exactly if that node is the first one known with the sender's IPv6 address, with the packet's source end point and command; it is acknowledged exactly if it asked for it; packets from unknown addresses are neither acknowledged nor delivered.",
  "every node table, sender and packet",
  "all tables and packets",
  [ZG + ":ZIPGateway.onUnsolicitedMessage"])
p("Node traffic is attributed to the right node",
  "A message received on a node connection is delivered under the node id that connection was opened for; connectToNode returns the same connection for the same node, so there is at most one connection per node.",
  "every sequence of connects and messages (not overlapping connects to the same node)",
  "unbounded histories",
  [ZG + ":ZIPGateway.onMessageReceived", ZG + ":ZIPGateway.connectToNode"])
p("Address lookups for different nodes do not mix",
  "ipOfNode(n) returns the address advertised for node n also when several lookups are in flight.",
  "every interleaving of lookups and advertisements",
  "races",
  [ZG + ":ZIPGateway.ipOfNode"])
# ---- node
p("Node information frames are split at the marks",
  "For every command class list, a class is supported exactly if it occurs before the support/control mark or after a later security mark, it requires S0 security exactly if its last such occurrence is after a security mark, and marks themselves are never taken as classes.",
  "every command class list of any length",
  "unbounded lists with marks anywhere",
  [N + ":Node.__init__"])
p("Supervised messages are answered exactly once",
  "Handling a Supervision.Get sends exactly one Supervision.Report with the same session id, status 0xFF if the inner command was handled and 0x00 otherwise, and the result equals the result of handling the inner command; unsupervised messages send no report.",
  "every message, listener set and node state",
  "all handlers and sessions",
  [N + ":supervision", N + ":Node.handleMessage"])
p("Message routing inside a node",
  "A message offered to a node is handled exactly if a waiter took it, its command class handler or listener handled it, or a catch-all listener handled it; the catch-all listeners are asked only if nobody else handled it.",
  "every message, node state and listener behaviour",
  "combinatorial",
  [N + ":Node.handleMessage", CC + "CommandClass.py:CommandClass.handleMessage"])
p("The storage lock batches updates",
  "While a (non nested) storage lock is held no update notification is sent; when it is released exactly one is sent if anything was updated and none otherwise; without a lock every update sends one.",
  "every history of updates and lock acquisitions and releases",
  "unbounded histories",
  [N + ":Node.storageLock", N + ":Node.commandClassUpdated"])
p("No update is lost by nested storage locks",
  "Also with nested storage locks every update is followed by an update notification no later than the release of the outermost lock.",
  "every properly nested history",
  "nesting",
  [N + ":Node.storageLock"])
# ---- application
p("Application node table follows the controller",
  "After nodeListUpdated() the application's nodes are exactly the controller's other nodes and, for new multi channel nodes, their end points; nodes already known keep their object.",
  "every table, node list and end point configuration",
  "all tables and lists",
  [AP + ":Application.nodeListUpdated", AP + ":Application.loadNode"])
p("Node events match the table change",
  "nodeListUpdated() reports every removed node exactly once as removed, every added node exactly once as added, and nothing else; batch and single notifications agree.",
  "every table and node list",
  "all tables and lists",
  [AP + ":Application.nodeListUpdated"])
p("Messages reach the addressed node or end point",
  "A message from node n end point e is handed to the node with id 'n:e' and to no other; messages from unknown nodes are not handled; node ids are unambiguous.",
  "every table, node id and end point",
  "all ids",
  [AP + ":Application.messageReceived", N + ":Node.nodeId"])
p("Inclusion and exclusion status is reported",
  "Application.onMessageReceived reports NodeAddStatus and NodeRemoveStatus to the matching listener callback, signals removal of node 0 exactly for a DONE status with node id 0, and never treats non Z/IP packets as handled.",
  "every message and listener behaviour",
  "combinatorial",
  [AP + ":Application.onMessageReceived"])
p("Overlapping node list updates are safe",
  "Two node list updates processed concurrently leave the application with the nodes of the latest list and do not fail.",
  "every interleaving of two updates",
  "races",
  [AP + ":Application.nodeListUpdated"])
# ---- command classes
p("A command class is marked interviewed only after a successful interview",
  "After interview() the command class is marked interviewed exactly if the version was known or obtained and the interview neither timed out nor returned False; during the interview it is not marked.",
  "every version answer and interview outcome",
  "all outcomes and prior states",
  [CC + "CommandClass.py:interviewDecorator"])
p("Cached configuration values are the last reported ones",
  "Configuration.get(n) with caching returns, without any traffic, the value of the most recent report for parameter n received since start (or load), and asks the node exactly if there was none.",
  "every history of reports, gets and sets",
  "unbounded histories",
  [CC + "Configuration.py:Configuration"])
p("Unsupported sensor reports are filtered, others are not",
  "From version 5 on, a sensor report reaches the listeners exactly if its type and scale are among those found by the interview; before version 5 every report reaches them.",
  "every supported set, report and version",
  "all sets",
  [CC + "SensorMultilevel.py:SensorMultilevel.__report__"])
p("Association groups after an interview",
  "After an association interview in which every group answered, there is one group per advertised group number holding the reported maximum and nodes; unanswered groups keep what was known; groups never disappear.",
  "every number of groups and every pattern of answers",
  "2^n answer patterns",
  [CC + "Association.py:Association.interview", CC + "Association.py:Groupings.setNumGroups"])
p("Lifeline association is only added when missing",
  "setupLifeLine() sends an association to the controller exactly if the node is Z-Wave Plus, group 1 exists and does not already contain the controller, using the multi channel form exactly if the node supports both multi channel classes.",
  "every node capability set and group content",
  "all contents",
  [CC + "Association.py:Association.setupLifeLine", CC + "Association.py:Nodes.contains"])
p("Group information is assembled from the reports",
  "After group info, name and command list reports (in any order after the info report), each group holds the last reported profile, name and commands; names of unknown groups are ignored.",
  "every report sequence",
  "unbounded sequences",
  [CC + "AssociationGrpInfo.py:AssociationGrpInfo"])
# ---- persistence
p("Command class attributes survive save and load",
  "Saving a node and loading it into a fresh node of the same kind restores the version and all stored attributes of Version, ManufacturerSpecific, ZwavePlusInfo, Configuration, SensorMultilevel and Association.",
  "every attribute content",
  "unbounded dictionaries and integers",
  [PS + ":YamlStorage", U + ":AttributesMixin.__getstate__", U + ":AttributesMixin.__setstate__"])
p("The interviewed mark survives save and load",
  "After save and load a command class is marked interviewed exactly if it was before.",
  "both values",
  "the storage format, not a mock, decides it",
  [CC + "CommandClass.py:CommandClass.__setstate__", PS + ":YamlStorage.nodeAdded"])
p("Association group information survives save and load",
  "After save and load the group names, profiles and command lists of AssociationGrpInfo are the same values.",
  "every content",
  "the storage format decides it",
  [CC + "AssociationGrpInfo.py:Groupings", PS + ":YamlStorage.nodeAdded"])
p("A crash while saving keeps a loadable state",
  "If the process stops at any point while a node is saved, a later start finds either the previous or the new settings of the node.",
  "every crash point and every content",
  "crash points cannot be enumerated by tests",
  [PS + ":YamlStorage.nodeUpdated"])
p("A failing listener does not stop the others",
  "speak() calls every listener that has the callback exactly once, in registration order, and returns one result per listener that did not raise; an exception in a synchronous listener affects no other listener.",
  "every list of listeners and every pattern of failures",
  "unbounded lists",
  [U + ":Listenable.speak", U + ":Listenable.ask"])
# ---- mailbox
p("Mailbox entries are never invented or duplicated",
  "Every entry the mailbox hands out for a queue handle was accepted by a push for that handle, and is handed out at most once per accepted push.",
  "every interleaving of pushes, pops and send outcomes",
  "unbounded histories",
  [MB + ":MailboxService"])
p("Mailbox entries of a queue are unique",
  "At any time the checksums of the entries stored for one handle are pairwise different.",
  "every history in which pushes to one handle do not overlap",
  "unbounded histories",
  [MB + ":MailboxService.__pushQueue__"])
p("Mailbox uniqueness under overlapping pushes",
  "The same, when pushes may overlap.",
  "every interleaving",
  "races",
  [MB + ":MailboxService.__pushQueue__"])
p("Mailbox is a queue",
  "Entries of a handle are handed out in the order in which they were accepted.",
  "every history",
  "unbounded histories",
  [MB + ":MailboxService.__popQueue__"])
p("The last mailbox entry is flagged",
  "A popped entry is flagged 'last' exactly if no entry remains for the handle, and an empty pop is always flagged 'last'.",
  "every queue content",
  "unbounded contents",
  [MB + ":MailboxService.__popQueue__"])
p("A mailbox entry is not lost when delivery fails",
  "If handing out an entry fails, the entry stays available.",
  "every history",
  "failure injection at every step",
  [MB + ":MailboxService.__popQueue__"])
p("Heartbeats run exactly for stored entries",
  "Heartbeats are sent exactly for the entries that are stored, starting with acceptance and ending with successful delivery; every tenth heartbeat is a PING, the others are WAITING.",
  "every history and every number of heartbeats",
  "unbounded histories",
  [MB + ":QueueItem._runner", MB + ":MailboxService"])
p("Distinct mailbox entries are all accepted",
  "A pushed message that differs from every stored entry of its handle is accepted.",
  "every queue content and every message",
  "depends on checksum collisions",
  [MB + ":QueueItem.checksum"])
p("A header extension cannot have length zero",
  "A Z/IP packet whose header extension declares length 0 (the length byte counts itself, so the smallest legal value is 1) is rejected; it is never delivered with a command read from the wrong position.",
  "every packet with such an extension",
  "the space of packets is unbounded",
  ["pyzwave/commandclass/Zip.py:HeaderExtension.deserialize"])
p("Installation and maintenance reports yield what the gateway sent",
  "Decoding the installation and maintenance option of a header extension yields, for every type that occurs in it, exactly the value of its last entry; types that do not occur are absent.",
  "every list of entries with values of any length",
  "unboundedly many entries",
  ["pyzwave/commandclass/Zip.py:HeaderExtension", "pyzwave/commandclass/Zip.py:InstallationMaintenanceReport"])
p("Strings are decoded as UTF-8, or rejected",
  "A string attribute that is a length octet followed by the UTF-8 encoding of a text is decoded to exactly that text and what follows it is untouched; octets that are not the encoding of any text (overlong forms, surrogates, truncated sequences, values above 0x10FFFF) are rejected.",
  "every text and every octet string",
  "the space of octet strings is unbounded",
  ["pyzwave/types.py:str_t"])
p("A group contains exactly its listed nodes",
  "Asking whether a node (and end point) is a member of an association group answers yes exactly if the entry is in the group.",
  "every group, node id and end point",
  "unbounded groups",
  ["pyzwave/commandclass/Association.py:Nodes"])
p("A send reports its outcome by its return value",
  "A call of send() whose packet was transmitted and registered ends by returning True or False; it does not raise (unless it is cancelled).",
  "every schedule of sends, packets, timers and task switches",
  "needs the schedules in which the acknowledgement and the timeout coincide",
  ["pyzwave/zipconnection.py:ZIPConnection.send", "pyzwave/adapter.py:Adapter.waitForAck"])
p("The newest node list wins",
  "When the handlers of all node list reports have ended, the nodes known are exactly those of the newest report.",
  "every pair of overlapping reports and every schedule",
  "needs the schedules in which the handlers of two reports overlap",
  ["pyzwave/zipgateway.py:ZIPGateway.__handleNodeListReport__"])
p("Listeners hear about every node list report",
  "When the handler of a node list report has ended the listeners have been told nodeListUpdated, also if a new node does not answer.",
  "every report, every set of nodes that do not answer, every schedule",
  "unboundedly many combinations of timeouts",
  ["pyzwave/zipgateway.py:ZIPGateway.__handleNodeListReport__", "pyzwave/zipgateway.py:ZIPGateway.ipOfNode"])
p("Messages on every returned node connection are delivered",
  "A message received on a connection connectToNode(n) has returned is told to the listeners under n, also if several calls for n overlapped.",
  "every schedule of overlapping calls",
  "races",
  ["pyzwave/zipgateway.py:ZIPGateway.connectToNode", "pyzwave/zipgateway.py:ZIPGateway.onMessageReceived"])
p("Success of an inclusion or exclusion command means it was acknowledged",
  "addNode, addNodeDSKSet, addNodeKeysSet, addNodeStop, removeNode and removeNodeStop return True only if the gateway acknowledged the command.",
  "every schedule of commands, acknowledgements and timeouts",
  "depends on the schedule",
  ["pyzwave/zipgateway.py:ZIPGateway.removeNode", "pyzwave/zipconnection.py:ZIPConnection.send"])
p("setGatewayMode changes the mode only when needed",
  "setGatewayMode(mode) asks for the mode, transmits a Set if and only if the reported mode differs, and returns False without changing anything if there is no report in time.",
  "every mode and every report",
  "all pairs of modes in every state",
  ["pyzwave/zipgateway.py:ZIPGateway.setGatewayMode"])
p("Gateway queries return what was reported, or the documented fallback",
  "getFailedNodeList, getMultiChannelEndPoints, getMultiChannelCapability, getNodeInfo and removeFailedNode return the content of a report of the right type that arrived during the call, or their fallback value if none did.",
  "every history of calls, packets and timeouts",
  "unbounded histories",
  ["pyzwave/zipgateway.py:ZIPGateway.getFailedNodeList", "pyzwave/zipgateway.py:ZIPGateway.getMultiChannelEndPoints", "pyzwave/zipgateway.py:ZIPGateway.removeFailedNode"])
p("Gateway queries return the answer for the node asked about",
  "getMultiChannelEndPoints(n) returns the number reported for node n, also when queries for several nodes are in flight.",
  "every interleaving of queries and reports",
  "races",
  ["pyzwave/zipgateway.py:ZIPGateway.getMultiChannelEndPoints"])
p("No stale answers",
  "A message returned by waitForMessage or sendAndReceive arrived after the call was made.",
  "every history of calls, messages, timeouts and cancellations",
  "unbounded histories",
  ["pyzwave/util.py:MessageWaiter.waitForMessage", "pyzwave/adapter.py:Adapter.sendAndReceive"])
p("Overlapping interviews do not mark a class early",
  "While an interview of a command class is running the class is not marked as interviewed, also when several interviews of it overlap.",
  "every interleaving of interview() calls and their answers",
  "races between calls",
  ["pyzwave/commandclass/CommandClass.py:interviewDecorator"])
p("A configuration value is the one that was asked for",
  "What Configuration.get(n) returns has been reported by the node for parameter n, also when reports for other parameters arrive meanwhile.",
  "every history of gets, reports and answers",
  "depends on which report arrives first",
  ["pyzwave/commandclass/Configuration.py:Configuration.get"])
p("Version, manufacturer and Z-Wave Plus information is what was reported",
  "After an interview of these classes each attribute holds the reported value; if the node does not answer nothing changes; a truncated report raises and never leaves a value that was not reported.",
  "every report and every previous content",
  "all report contents and truncations",
  ["pyzwave/commandclass/Version.py:Version.interview", "pyzwave/commandclass/ManufacturerSpecific.py:ManufacturerSpecific.interview", "pyzwave/commandclass/ZwavePlusInfo.py:ZwavePlusInfo.interview"])
p("The mailbox answers wakeups and acknowledgements",
  "Every wakeup notification and every acknowledgement of an entry is answered with exactly one POP message to its sender, for the queue it names.",
  "every history and every queue handle",
  "unbounded histories",
  ["pyzwave/mailbox.py:MailboxService.messageReceived", "pyzwave/mailbox.py:MailboxService.__popQueue__"])
p("Every node in the table has been announced",
  "When no node list update or startup is running, listeners have been told nodeAdded for every node and end point the application has.",
  "every history of updates and startups, every answer and failure",
  "depends on which query fails when",
  ["pyzwave/application.py:Application.loadNode", "pyzwave/application.py:Application.nodeListUpdated"])
p("Startup loads and announces the network",
  "After startup() the application has exactly the controller's other nodes and the end points of the multi channel nodes, and listeners have been told about all of them once together and once each.",
  "every node list, node information and end point configuration",
  "all networks",
  ["pyzwave/application.py:Application.startup", "pyzwave/application.py:Application.loadNode"])
p("Saved settings of nodes do not mix",
  "Whatever nodes are saved, how often and in which order, what is loaded for a node is what was last saved for that node, or what was there before if it was not saved.",
  "every sequence of saves of any nodes",
  "unbounded histories of saves",
  ["pyzwave/persistantstorage.py:YamlStorage.nodeUpdated", "pyzwave/persistantstorage.py:YamlStorage.nodeAdded", "pyzwave/persistantstorage.py:YamlStorage.pathForNode"])
p("Commands go to the node they are for",
  "sendToNode() and Node.send() put each command into exactly one datagram, on a connection opened for that node, with the source and destination end point given and consecutive numbers; nothing else is sent. They return True only if that datagram was acknowledged on that connection after it was sent, and raise without sending if the connection cannot be opened.",
  "every interleaving of calls for any nodes, lookups, socket events, datagrams and timers",
  "unbounded schedules over many connections",
  ["pyzwave/zipgateway.py:ZIPGateway.sendToNode", "pyzwave/zipgateway.py:ZIPGateway.connectToNode", "pyzwave/node.py:Node.send", "pyzwave/zipconnection.py:ZIPConnection.send"])
p("A command from a node reaches that node's object",
  "A command in a Z/IP packet that arrives on the connection of a node, or from its address on the unsolicited connection, is handed by the application to the object of that node and source end point and to no other; what arrives on a connection is never handed to another node.",
  "every gateway and application history, packet header, command and end point",
  "composition of gateway and application over unbounded histories",
  ["pyzwave/zipconnection.py:ZIPConnection.onPacket", "pyzwave/zipgateway.py:ZIPGateway.onMessageReceived", "pyzwave/zipgateway.py:ZIPGateway.onUnsolicitedMessage", "pyzwave/application.py:Application.messageReceived"])
p("Interviewing a node visits every class",
  "Node.interview() interviews the supported classes one after the other, each by a new interview, in the order of the node information; a class that times out does not stop it. If it returns, all were interviewed; if it raises, it raises what the interview of one class raised, after those before it and without beginning those after it. Under the storage lock listeners are told at most once, when it is left, and exactly if a class was updated.",
  "every list of classes, every interleaving of interviews of the node and of single classes, answers, timeouts and exceptions",
  "unbounded schedules, any number of overlapping interviews",
  ["pyzwave/node.py:Node.interview", "pyzwave/node.py:Node.storageLock", "pyzwave/node.py:Node.commandClassUpdated", "pyzwave/commandclass/CommandClass.py:interviewDecorator"])
p("The answer to a question is the answer of the node that was asked",
  "If sendAndReceive() on a node returns a message, the message has the requested type, came in a datagram from that node and end point and was delivered after the call was made; and the command was sent to that node and end point and acknowledged on a connection opened for that node, with the number it was sent with, after the call was made.",
  "every interleaving of questions to any nodes, lookups, socket events, datagrams, timers, deliveries and node list changes",
  "composition of gateway, connections, application and node objects over unbounded schedules",
  ["pyzwave/node.py:Node.sendAndReceive", "pyzwave/node.py:Node.handleMessage", "pyzwave/application.py:Application.messageReceived", "pyzwave/zipgateway.py:ZIPGateway.sendToNode", "pyzwave/util.py:MessageWaiter"])
p("No call waits forever",
  "waitForMessage(), sendAndReceive() and ZIPConnection.send() end once their time has passed and the event loop has given them their turns, whatever else happens: with a timeout they end with the message or with an exception, and a send that was told to wait for a sleeping node ends after the announced delay.",
  "every history before and after the call, every interleaving with other calls, messages and timers",
  "liveness over unbounded schedules",
  ["pyzwave/util.py:MessageWaiter.waitForMessage", "pyzwave/adapter.py:Adapter.sendAndReceive", "pyzwave/node.py:Node.sendAndReceive", "pyzwave/zipconnection.py:ZIPConnection.send"])
p("What arrives on a socket is handed on",
  "A connection hands every datagram that arrives while its socket is open to the callback given last, once, unchanged, in the order of arrival, and with the sender's address exactly if the connection listens; errors, failed connection attempts and sending do not disturb this, and nothing else is handed to a callback.",
  "every history of connect(), listen(), onMessage(), send(), stop(), datagrams, errors and losses",
  "unbounded histories with several sockets",
  ["pyzwave/connection.py:ZipClientProtocol.datagram_received", "pyzwave/connection.py:Connection._msgReceived", "pyzwave/connection.py:Connection.onMessage"])
p("send() on a connection tells whether it sent",
  "Connection.send() returns True exactly if the datagram was sent; it is sent once, on the socket of the connect() that returned last. Before connect() has returned it returns False and sends nothing.",
  "every history, every datagram",
  "depends on when the socket is opened, lost and closed",
  ["pyzwave/connection.py:Connection.send", "pyzwave/connection.py:Connection.sendTo", "pyzwave/connection.py:Connection.run"])
p("A connection ends only when it is stopped or its socket breaks",
  "The socket of a connection is closed only by stop() or after a fatal error of that socket.",
  "every history of connects, losses and errors",
  "needs the order of the loss of an old socket and a new connect()",
  ["pyzwave/connection.py:Connection.run", "pyzwave/connection.py:Connection.connect", "pyzwave/connection.py:Connection.stop"])
p("Meter reports are read as sent",
  "For a meter report in the layout of the standard, with any rate type, meter type, value, scale and time, the decoded message has exactly these, and its scale is the number made of the scale bit in the first byte and the two in the second; it is an electric meter scale exactly for electric meters. A report that ends before the value has no scale.",
  "all rate types, meter types, mantissas, precisions, scales, times and trailing bytes",
  "the space of reports is unbounded; bits of one number lie in two bytes",
  ["pyzwave/commandclass/Meter.py:Report", "pyzwave/commandclass/Meter.py:Report.scale", "pyzwave/types.py:float_t"])
p("The version of a class comes from a report for that class",
  "requestVersion() asks for the version of its own class, and the version that is stored is the one in a report for that class, if the node only answers questions.",
  "every interleaving of questions for versions, reports and timers; every class and version",
  "needs overlapping calls and reports in every order",
  ["pyzwave/commandclass/CommandClass.py:CommandClass.requestVersion", "pyzwave/node.py:Node.sendAndReceive"])
p("Long association lists are held completely",
  "After asking a node for an association group, the group holds all nodes that the node reported for it, in however many reports.",
  "all groups, all lists of nodes, all ways to split them into reports",
  "unbounded number of reports",
  ["pyzwave/commandclass/Association.py:Association.interviewGrouping", "pyzwave/commandclass/Association.py:Report"])
p("A provisioning entry has the layout of the standard",
  "A NodeProvisioning.Set message for any key and any meta data has the layout of the standard on the wire: sequence number, length of the key, key, meta data.",
  "all sequence numbers, keys and meta data",
  "the layout has to hold for every key and meta data",
  ["pyzwave/commandclass/NodeProvisioning.py:Set", "pyzwave/types.py:dsk_t"])
p("The key that is confirmed is sent",
  "addNodeDSKSet() sends what it is given: a whole key, as bytes, as text or as found in a report, or the bytes that were asked for.",
  "all keys, all forms, all requested lengths",
  "the forms take different ways through the attribute types",
  ["pyzwave/zipgateway.py:ZIPGateway.addNodeDSKSet", "pyzwave/types.py:dsk_t.__setstate__", "pyzwave/types.py:dsk_t.serialize"])
p("What a DTLS connection reads is handed on",
  "Every datagram a DTLS connection reads is handed on in the event loop, once, unchanged, in order, to the callback that was set when it was read; with the sender if the connection listens.",
  "every interleaving of the reading thread, the event loop, onMessage(), send(), stop() and errors",
  "two threads that interleave in unboundedly many ways",
  ["pyzwave/dtlsconnection.py:DTLSConnection.run", "pyzwave/dtlsconnection.py:DTLSConnection.onMessage"])
p("connect() of a DTLS connection returns when it can send",
  "connect() returns only after the handshake and then send() gives every datagram to the socket; if the handshake ends in time it returns, if not it raises TimeoutError. Before that send() sends nothing. A connection that was used raises RuntimeError.",
  "every interleaving of the thread, the event loop and timers",
  "depends on the order of two threads and a timer",
  ["pyzwave/dtlsconnection.py:DTLSConnection.connect", "pyzwave/dtlsconnection.py:DTLSConnection.run", "pyzwave/dtlsconnection.py:DTLSConnection.send"])
p("A stopped DTLS connection reads no more",
  "After stop() a DTLS connection reads and hands on no datagram.",
  "every state in which stop() is called, everything that happens afterwards",
  "the thread may be anywhere when stop() is called",
  ["pyzwave/dtlsconnection.py:DTLSConnection.stop", "pyzwave/dtlsconnection.py:DTLSConnection.run"])
p("Keys stay in their buffers",
  "The callbacks that hand the pre-shared key to OpenSSL write the key and the identity in the buffers that were passed and nothing outside of them.",
  "all keys, buffers and contents of memory",
  "the damage shows only in memory that belongs to others",
  ["pyzwave/dtlsconnection.py:DTLSConnection.clientPskCb", "pyzwave/dtlsconnection.py:DTLSConnection.serverPskCb"])
p("Messages can be compared",
  "Two messages are equal exactly if they are of the same type and all their attributes are equal, and comparing raises nothing.",
  "all pairs of messages, received or made",
  "ranges over all types, all values and all truncated messages",
  ["pyzwave/message.py:Message.__eq__", "pyzwave/message.py:Message.compose"])
p("No datagram makes a connection raise",
  "Whatever arrives, in whatever state, is handled or ignored: no exception leaves the receive path.",
  "all datagrams, all histories of a connection",
  "all byte sequences combined with all states of outstanding calls",
  ["pyzwave/zipconnection.py:ZIPConnection.onPacket", "pyzwave/adapter.py:Adapter.ackReceived", "pyzwave/adapter.py:Adapter.commandReceived", "pyzwave/util.py:MessageWaiter.messageReceived"])
p("remove() tells the truth",
  "remove() of a node returns True only if the gateway has reported, during the call, that this node has been removed; with any other status or without a report it returns False.",
  "every history of the gateway, every schedule and every packet that arrives during the call",
  "overlapping calls and late reports are unbounded in number",
  ["pyzwave/node.py:Node.remove", "pyzwave/zipgateway.py:ZIPGateway.removeFailedNode"])
p("connect() gives every node an address",
  "When connect() to a gateway has returned, every node in the list has an address: the one it had, or one advertised during the call.",
  "every history of the gateway, every list of nodes, every schedule and every packet that arrives during the call",
  "other calls and reports may change the table between any two lookups",
  ["pyzwave/zipgateway.py:ZIPGateway.setupUnsolicitedConnection", "pyzwave/zipgateway.py:ZIPGateway.getNodeList", "pyzwave/zipgateway.py:ZIPGateway.ipOfNode"])
p("What is learned is on disk",
  "Whenever no interview is running and the storage is not locked, the settings of a node on disk are those in memory: starting again gives every command class its version and attributes.",
  "every order of version reports, interviews, configuration and group reports and storage locks, every node",
  "saving depends on notifications that any report, failed interview or nested lock may leave out",
  ["pyzwave/node.py:Node.commandClassUpdated", "pyzwave/node.py:Node.storageLock", "pyzwave/persistantstorage.py:YamlStorage.nodeUpdated", "pyzwave/commandclass/CommandClass.py:interviewDecorator", "pyzwave/commandclass/AssociationGrpInfo.py:AssociationGrpInfo"])
p("Saved settings are there after a restart",
  "When the application announces a node for which there is a file, the node has the settings in the file.",
  "every schedule of startup, node list updates, answers and reports from nodes, every file written earlier",
  "reports may arrive at any moment between loading and announcing a node",
  ["pyzwave/application.py:Application.startup", "pyzwave/application.py:Application.loadNode", "pyzwave/persistantstorage.py:YamlStorage.nodeAdded"])
p("A new node does not inherit settings",
  "A node that is added after the node with its number was removed starts without settings.",
  "every schedule of the application and every history of the nodes",
  "numbers are reused only after many inclusions, and the settings look plausible",
  ["pyzwave/application.py:Application.nodeListUpdated", "pyzwave/persistantstorage.py:YamlStorage.nodeAdded", "pyzwave/persistantstorage.py:YamlStorage.nodeUpdated"])
p("Queries give up in time, and not before",
  "A query to the gateway that gets no report returns no earlier than its time after the call (3 seconds, 10 for removing a failed node), and it ends once that time has passed after the end of its send.",
  "every history of the gateway, every query, every schedule in which the event loop gives the query its turns",
  "other calls, packets and timers may interleave in any way",
  ["pyzwave/zipgateway.py:ZIPGateway.removeFailedNode", "pyzwave/zipgateway.py:ZIPGateway.getNodeList", "pyzwave/zipgateway.py:ZIPGateway.getNodeInfo", "pyzwave/adapter.py:Adapter.sendAndReceive"])
p("No call gives up early",
  "waitForMessage() and sendAndReceive() do not raise TimeoutError before their timeout has passed after the call, and send() does not end without an acknowledgement before its timeout or, once the gateway has asked to wait, before the announced delay and a minute after that response.",
  "every schedule, every number of overlapping calls",
  "timers, responses and other calls may interleave in any way",
  ["pyzwave/util.py:MessageWaiter.waitForMessage", "pyzwave/adapter.py:Adapter.sendAndReceive", "pyzwave/adapter.py:Ack.wait", "pyzwave/node.py:Node.sendAndReceive", "pyzwave/zipconnection.py:ZIPConnection.send"])
p("Messages nobody waits for are told",
  "A message whose type no call is waiting for is not taken by the waiting calls: it is told to the listeners.",
  "every schedule of calls, messages, timeouts and cancellations",
  "depends on how every earlier call for the same type has ended",
  ["pyzwave/util.py:MessageWaiter.messageReceived", "pyzwave/adapter.py:Adapter.sendAndReceive", "pyzwave/node.py:Node.sendAndReceive", "pyzwave/node.py:Node.handleMessage"])
p("connect() returns when the gateway is set up",
  "When connect() has returned without an exception, the gateway has reported that it is in mode 1 or acknowledged the command to go there, and has acknowledged the destination of unsolicited messages.",
  "every schedule of any number of overlapping connect() calls and anything else the gateway does, every packet, every socket error",
  "the gateway may be slow, silent or restarting at any of the steps",
  ["pyzwave/zipgateway.py:ZIPGateway.connect", "pyzwave/zipgateway.py:ZIPGateway.setGatewayMode", "pyzwave/zipgateway.py:ZIPGateway.setupUnsolicitedConnection"])
p("The gateway is told to send unsolicited messages to this host",
  "The destination of unsolicited messages that connect() registers is an address of this host and a port that is listened on.",
  "every schedule and every address of the local side of the socket",
  "a test runs on a host with one address and a mocked connection",
  ["pyzwave/zipgateway.py:ZIPGateway.setupUnsolicitedConnection"])
p("The mailbox is turned on at the gateway",
  "MailboxService.initialize(address, port) transmits one command that turns forwarding to this address and port on, returns True only if the gateway acknowledged it after the call, and raises without transmitting anything if the port does not fit.",
  "every address, every port, every history of the connection before and after",
  "all addresses and ports, and acknowledgements of earlier commands that arrive late",
  ["pyzwave/mailbox.py:MailboxService.initialize", "pyzwave/zipconnection.py:ZIPConnection.send"])
p("Describing a message never raises and shows what arrived",
  "debugString() of every message that was decoded from a packet, or made from arguments, returns a text. The text names the command class and the command, has a line for each attribute the message got with digits that have its value, and describes an included command below it.",
  "every packet, every argument, every indentation",
  "all packets of all message types, including values that enumerations do not define",
  ["pyzwave/util.py:AttributesMixin.debugString", "pyzwave/message.py:Message.__repr__", "pyzwave/types.py:uint_t.__repr__"])
p("A command class object is the class it was loaded for, and one listener method means one message",
  "The object loaded for a command class number has that number, a name no other number has, and handlers for messages of its own class only. The method of its listeners for a message is on followed by the words of the name in capitalised form; within a class different messages have different methods, and a message calls exactly the listeners that have its method.",
  "every command class number, every message, every node and everything the callbacks do",
  "all numbers, known and unknown, and all pairs of messages of a class",
  ["pyzwave/commandclass/CommandClass.py:CommandClass.load", "pyzwave/commandclass/CommandClass.py:CommandClass.handleMessage", "pyzwave/commandclass/CommandClass.py:UnknownCommandClass", "pyzwave/commandclass/__init__.py:CommandClassCollection"])
p("What a node object holds about configuration and groups came from that node",
  "Parameter values, association groups and their commands in a node object were loaded or came in a report for that parameter or group from that node and end point. A complete configuration report from an end point is stored in its object with the task for it, whatever happens between, and changes nothing else.",
  "every schedule of packets, tasks, sends, node list changes and loading, every node and end point",
  "messages from all nodes interleave with their tasks, and node objects are replaced while messages for them wait",
  ["pyzwave/commandclass/Configuration.py:Configuration", "pyzwave/commandclass/AssociationGrpInfo.py:AssociationGrpInfo", "pyzwave/node.py:Node.handleMessage", "pyzwave/application.py:Application.messageReceived"])
p("A supervised command is reported on once, to its sender",
  "Every report on a supervised command goes to the node and end point from which it came in a datagram, with its session id, and there is one report at most. It is sent when handling the command ends without an exception, and says whether it was handled.",
  "every schedule, every number of overlapping handlers",
  "handlers wait for other nodes while more supervised commands arrive",
  ["pyzwave/node.py:supervision", "pyzwave/node.py:Node.handleMessage", "pyzwave/node.py:Node.send", "pyzwave/commandclass/AssociationGrpInfo.py:AssociationGrpInfo.__groupInfoReport__"])
p("The name of a group is one the node has said",
  "The name of an association group of a node is one that was loaded or that came in a name report for this group from this node and end point.",
  "every schedule and every packet",
  "needs reports that end early, in every order",
  ["pyzwave/commandclass/AssociationGrpInfo.py:AssociationGrpInfo.__groupNameReport__", "pyzwave/util.py:AttributesMixin.__setattr__"])
p("What the table says of a node answers a question for that node",
  "The command classes, device classes and listening flag of a node in the application's table came in a node info report that carries the sequence number of a question for that node. In any case the node was listed in a node list report, and an end point has what a capability report said.",
  "every schedule of startup and node list updates over the gateway, every datagram",
  "startup and updates overlap, and their queries wait for the same kind of report",
  ["pyzwave/application.py:Application.loadNode", "pyzwave/application.py:Application.loadEndPointNode", "pyzwave/zipgateway.py:ZIPGateway", "pyzwave/zipconnection.py:ZIPConnection", "pyzwave/adapter.py:Adapter"])
p("The controller is not one of the nodes",
  "If every node list report names the same controller, no node or end point of that number is in the application's table.",
  "every schedule of startup and node list updates over the gateway, every datagram, every controller id",
  "needs a node list report that arrives before the gateway has been asked for one",
  ["pyzwave/application.py:Application.loadNode", "pyzwave/zipgateway.py:ZIPGateway.getNodeList", "pyzwave/zipgateway.py:ZIPGateway"])
p("A node that does not answer does not keep startup from announcing the others",
  "Once startup has ended, every node in the table has been announced to the listeners. If it ends without an exception they were told of the whole table and then of each node once, in order; if it ends with one, a listener or the adapter raised it, or a report had no usable list of command classes.",
  "every schedule with one startup, every datagram, every timeout",
  "needs all combinations of nodes that answer, stay silent or answer incompletely",
  ["pyzwave/application.py:Application.startup", "pyzwave/application.py:Application.loadNode", "pyzwave/zipgateway.py:ZIPGateway.getNodeInfo"])
p("Startup brings up every network",
  "If the gateway acknowledges every packet and answers every question about its network, startup ends without an exception; the table then has the nodes of the network other than the gateway, each with its end points and what the gateway knows of them, and the listeners have been told of them all and of each of them once.",
  "every network whose reports can be used: every node mask, every device, every number of end points up to 127, every order of the set of nodes",
  "needs large networks: the sequence number of the questions does not wrap around",
  ["pyzwave/application.py:Application.startup", "pyzwave/application.py:Application.loadNode", "pyzwave/application.py:Application.loadEndPointNode", "pyzwave/zipgateway.py:ZIPGateway", "pyzwave/zipconnection.py:ZIPConnection", "pyzwave/adapter.py:Adapter"])
p("Each group information report is followed up on its own",
  "When a group information report of a node is handled, the node and end point it came from is asked for the name and then for the commands of each listed group, in order, each question after the send of the one before has ended. This holds however many such reports are handled at the same time. It stops early only if a send raises; a supervised report is answered when everything has been asked.",
  "every schedule, every number of overlapping reports, every packet",
  "needs reports whose handlers overlap, with sends that end in every order",
  ["pyzwave/commandclass/AssociationGrpInfo.py:AssociationGrpInfo.__groupInfoReport__", "pyzwave/node.py:Node.send", "pyzwave/node.py:supervision"])
p("A node list report brings the application up to date",
  "After startup, whenever the gateway reports a new list of nodes, the gateway's addresses and the application's table follow: nodes that are gone are removed, nodes that are still there stay as they were, and new nodes are loaded with their end points. If the gateway advertises the addresses it is asked for, acknowledges every packet and answers every question, the update ends without an exception, and the listeners have been told of what was removed and added, each once and in this order.",
  "every network before and after, every table the application may have, every header, status and sequence number of the report, every order of the sets",
  "needs networks that change again and again; the sequence number of the questions does not wrap around",
  ["pyzwave/application.py:Application.nodeListUpdated", "pyzwave/application.py:Application.loadNode", "pyzwave/zipgateway.py:ZIPGateway.onUnsolicitedMessage", "pyzwave/zipgateway.py:ZIPGateway.ipOfNode", "pyzwave/zipgateway.py:ZIPGateway.getNodeList", "pyzwave/zipconnection.py:ZIPConnection", "pyzwave/adapter.py:Adapter"])
p("Attributes of nodes read back what was written",
  "Reading an attribute of a node or end point gives the value last written to it, or 0 or False. An end point has the device's attributes (basic device class, FLiRS, failing, listening) of its node at any time; setting them on the end point raises AttributeError and changes nothing.",
  "every history of loading nodes and end points and setting attributes",
  "needs every order of writes to nodes and their end points",
  ["pyzwave/node.py:Node", "pyzwave/node.py:NodeEndPoint", "pyzwave/application.py:Application.loadNode", "pyzwave/application.py:Application.loadEndPointNode"])
p("A node that is listed as failing is marked as failing",
  "After startup, isFailed of a node object says whether the controller has listed the node as failing.",
  "every history of loading nodes, lists of failing nodes and setting attributes",
  "a history that sets nothing shows nothing; needs all of them to see that nothing ever sets the mark",
  ["pyzwave/application.py:Application.startup", "pyzwave/node.py:Node.isFailed"])
p("A node that answers is heard",
  "sendAndReceive() on a node that has a connection: if the command is acknowledged in time and a report of the type from that node and end point arrives and is delivered within the timeout after that, the call returns a message of the type. Nothing else that happens at the same time prevents it, except another call on the object for the same type or a cancellation.",
  "every history before the call, every schedule of everything else, every command, report and header",
  "needs everything that can happen between the question, the acknowledgement, the report and its delivery",
  ["pyzwave/node.py:Node.sendAndReceive", "pyzwave/zipgateway.py:ZIPGateway.sendToNode", "pyzwave/zipconnection.py:ZIPConnection.send", "pyzwave/zipgateway.py:ZIPGateway.onMessageReceived", "pyzwave/application.py:Application.messageReceived", "pyzwave/util.py:MessageWaiter.messageReceived"])
p("The encapsulation option says how a packet was secured",
  "In a packet with header options the encapsulation option gives the security class in its first byte and the CRC-16 flag in the lowest bit of its second byte. The last such option counts; what its payload is too short for is left out; without such an option there is no such entry.",
  "every list of well-formed options of known types, every header, every command",
  "needs every payload length and every combination of options",
  ["pyzwave/commandclass/Zip.py:ZIPPacketOptionEncapsulationFormatInfo", "pyzwave/commandclass/Zip.py:HeaderExtension.deserialize", "pyzwave/commandclass/Zip.py:ZIPPacketOption.parse_optionData"])
p("Readings are the closest floats",
  "The value of a sensor or meter report is the float closest to the decimal number the node sent. Different numbers give different floats, equal numbers the same one, and rounding to the number of decimals that was sent gives the number back.",
  "every mantissa of up to six bytes (the standard has up to four), every precision, scale and size",
  "there are more mantissas than can be tried; mantissas of seven bytes do lose digits",
  ["pyzwave/types.py:float_t.deserialize", "pyzwave/commandclass/SensorMultilevel.py:Report", "pyzwave/commandclass/Meter.py:Report"])
p("Startup succeeds whatever happens meanwhile, if the answers are in time",
  "startup() is called on a connected gateway with no other questions outstanding, with or without a list of nodes. If no acknowledgement or report is waited for in vain, startup never raises; when it has ended the table has the nodes of the network with their end points and the listeners have been told of each once. It is never stuck: from wherever it is, the rest of the answers ends it.",
  "every gateway state that can be reached, every network whose questions fit in the sequence numbers left, every schedule in which answers are in time: reports may come twice or before the acknowledgement, and other packets, other connections, keep-alives, unsolicited frames and other waiting calls may come between in any order",
  "needs every interleaving of everything else with every question of startup",
  ["pyzwave/application.py:Application.startup", "pyzwave/application.py:Application.loadNode", "pyzwave/zipgateway.py:ZIPGateway.getNodeList", "pyzwave/adapter.py:Adapter.sendAndReceive", "pyzwave/zipconnection.py:ZIPConnection.send", "pyzwave/util.py:MessageWaiter.messageReceived"])
p("An update follows the network whatever happens meanwhile, if the answers are in time",
  "A node list report has been handled and the application is told (nodeListUpdated). If no acknowledgement or report is waited for in vain, the update never raises, even if further node list reports arrive; when it has ended the table has the nodes of the list at its beginning: those known before as they were, followed by the new ones with their end points; the listeners have been told of what was removed and added. It is never stuck. After startup in time, and after every update in time, the next update can begin.",
  "every state after a startup or update that ended, with whatever happened to the gateway since; every network whose new nodes' questions fit in the sequence numbers left; every schedule in which answers are in time",
  "needs every interleaving of everything else, further reports included, with every question of every update",
  ["pyzwave/application.py:Application.nodeListUpdated", "pyzwave/application.py:Application.loadNode", "pyzwave/application.py:Application.loadEndPointNode", "pyzwave/zipgateway.py:ZIPGateway.getNodeList", "pyzwave/zipgateway.py:ZIPGateway.onUnsolicitedMessage", "pyzwave/adapter.py:Adapter.sendAndReceive"])
p("A node list report takes effect when its task begins, as a whole",
  "The handling of an unsolicited node list report begins in a later iteration of the event loop. Until then it has no effect on the table, the connection or the listeners, and messages are attributed by the table as it was. Afterwards everything is as if the report had arrived when its task began: nothing else is reordered, each report takes effect once, and with the order of asyncio they take effect in the order of arrival.",
  "every schedule of the gateway, and of the application on the gateway, with any number of reports waiting and anything happening between the arrival of a report and the beginning of its task",
  "needs every moment at which a task can begin and everything that can arrive before it",
  ["pyzwave/zipgateway.py:ZIPGateway.onUnsolicitedMessage", "pyzwave/zipgateway.py:ZIPGateway.__handleNodeListReport__"])
p("A node that answers is interviewed completely",
  "If a node answers each question for the version of a class with that version and the interviews of its classes do not fail, then Node.interview() does not raise and can always be completed, and when it has returned every class has the version the node has and is marked as interviewed, unless it is being interviewed again.",
  "every node with any number of classes, every schedule, also if interviews of the node and of single classes and requests for versions overlap",
  "needs every interleaving of overlapping interviews with the answers",
  ["pyzwave/node.py:Node.interview", "pyzwave/commandclass/CommandClass.py:interviewDecorator", "pyzwave/commandclass/CommandClass.py:CommandClass.requestVersion"])
p("ask() gives the answers of all listeners",
  "ask() comes to every listener once, in the order in which they were registered, also to those registered while it tells the others. It returns the answers of all that have the method and did not raise, in that order, as soon as the last coroutine has ended, however long each takes. If a coroutine raises, ask() raises what the first one raised, and the others run to their end.",
  "every schedule of any number of listeners, calls of ask() that overlap, coroutines that await for any time, and registrations at any time",
  "needs every order in which coroutines of several calls can end and listeners can be registered",
  ["pyzwave/util.py:Listenable.ask", "pyzwave/util.py:Listenable.speak", "pyzwave/util.py:Listenable.addListener"])
p("A class that is marked as interviewed has its answers",
  "If the interview of a command class ends in a way that marks the class as interviewed, then everything it asked the node was answered and everything it sent was acknowledged.",
  "every command class with an interview of its own, every sequence of answers, exceptions and acknowledgements, and anything that happens to the attributes of the class meanwhile",
  "needs every combination of answers that do not come or are about something else",
  ["pyzwave/commandclass/Association.py:Association.interview", "pyzwave/commandclass/AssociationGrpInfo.py:AssociationGrpInfo.interview", "pyzwave/commandclass/SensorMultilevel.py:SensorMultilevel.interview", "pyzwave/commandclass/Version.py:Version.interview", "pyzwave/commandclass/ManufacturerSpecific.py:ManufacturerSpecific.interview", "pyzwave/commandclass/ZwavePlusInfo.py:ZwavePlusInfo.interview"])

p("A class that is marked as interviewed has been interviewed",
  "If a command class is marked as interviewed and was not loaded so, then one of its interviews has ended well, and what that interview asked and sent is what it does with the answers it got; if the class is Version, ManufacturerSpecific, ZwavePlusInfo or SensorMultilevel it got an answer to everything it asked. Version, manufacturer and Z-Wave Plus information is what the reports said that came as answers, one after the other, and if the latest one is complete it is this report as a whole.",
  "every schedule of any number of overlapping interviews and requests for the version, loading, and every answer and exception",
  "needs every interleaving of interviews that write the same attributes",
  ["pyzwave/commandclass/CommandClass.py:interviewDecorator", "pyzwave/commandclass/CommandClass.py:CommandClass.requestVersion", "pyzwave/commandclass/Version.py:Version.interview", "pyzwave/commandclass/ManufacturerSpecific.py:ManufacturerSpecific.interview", "pyzwave/commandclass/ZwavePlusInfo.py:ZwavePlusInfo.interview", "pyzwave/commandclass/SensorMultilevel.py:SensorMultilevel.interview"])
p("The scales of a sensor are those of this sensor",
  "The scales that a SensorMultilevel object holds for a sensor have been reported by the node for this sensor.",
  "every schedule of any number of overlapping interviews, every answer and exception",
  "needs an answer that comes when another sensor is being asked for",
  ["pyzwave/commandclass/SensorMultilevel.py:SensorMultilevel.interview"])

p("Interviews raise only what their requests raise",
  "If the reports a node answers with are complete, then the interview of a command class raises nothing but what one of its own requests or sends raised.",
  "every command class with an interview of its own (Version, ManufacturerSpecific, ZwavePlusInfo, SensorMultilevel, Association), every schedule of overlapping interviews and requests for the version, every complete report and every exception",
  "needs an interleaving of two interviews in which one changes what the other iterates over",
  ["pyzwave/commandclass/Association.py:Association.interview", "pyzwave/commandclass/Association.py:Groupings.setNumGroups", "pyzwave/commandclass/SensorMultilevel.py:SensorMultilevel.interview", "pyzwave/commandclass/Version.py:Version.interview", "pyzwave/commandclass/ManufacturerSpecific.py:ManufacturerSpecific.interview", "pyzwave/commandclass/ZwavePlusInfo.py:ZwavePlusInfo.interview"])

p("What a class holds about a node came from that node",
  "Whatever an interview of a command class takes for an answer came in a datagram from the node and end point of the class, has the type that was asked for, and the question was sent to this node and end point and acknowledged; a command that an interview takes for sent was acknowledged by the node. So the version of a class, version, manufacturer and Z-Wave Plus information, the scales of sensors and the nodes of association groups are what this node has reported or what was there before, and the nodes of a group were reported for this group.",
  "every history of the gateway, its connections and the table of nodes, with any number of overlapping interviews of the class, of other classes of the node and of other nodes",
  "needs the interleavings of interviews of several nodes with the datagrams of all of them",
  ["pyzwave/commandclass/CommandClass.py:interviewDecorator", "pyzwave/commandclass/CommandClass.py:CommandClass.requestVersion", "pyzwave/commandclass/CommandClass.py:CommandClass.sendAndReceive", "pyzwave/node.py:Node.sendAndReceive", "pyzwave/node.py:Node.send", "pyzwave/commandclass/Version.py:Version.interview", "pyzwave/commandclass/ManufacturerSpecific.py:ManufacturerSpecific.interview", "pyzwave/commandclass/ZwavePlusInfo.py:ZwavePlusInfo.interview", "pyzwave/commandclass/SensorMultilevel.py:SensorMultilevel.interview", "pyzwave/commandclass/Association.py:Association.interview"])

p("Interviews end also when nothing arrives any more",
  "Whatever has happened before, every call of interview() or requestVersion() of a command class can come to its end without any further datagram or call: when time passes, timers fire and coroutines have their turns, all of the calls end, whether sockets that are being opened can be opened or not. No call can be stuck for good, be it while the address of the node is looked up, while the connection is opened, before the acknowledgement or before the answer.",
  "every history of the gateway, its connections and the table of nodes, every command class, any number of overlapping interviews and requests for the version at any stage",
  "needs every reachable state, in particular calls that share futures, sequence numbers and sessions with others that were cancelled or timed out",
  ["pyzwave/commandclass/CommandClass.py:interviewDecorator", "pyzwave/commandclass/CommandClass.py:CommandClass.requestVersion", "pyzwave/node.py:Node.sendAndReceive", "pyzwave/zipgateway.py:ZIPGateway.sendToNode", "pyzwave/zipgateway.py:ZIPGateway.connectToNode", "pyzwave/adapter.py:Adapter.waitForAck", "pyzwave/util.py:MessageWaiter.waitForMessage"])

p("Calls of the gateway end also when nothing arrives any more",
  "Whatever has happened before, every coroutine of the gateway (network management calls, setGatewayMode, the node list part of setupUnsolicitedConnection, connectToNode and the handling of node list reports) can come to its end without any further datagram or call: when time passes, timers fire and coroutines have their turns, all of them end, whether sockets that are being opened can be opened or not.",
  "every history of the gateway and its connections, any number of overlapping calls at any stage",
  "needs every reachable state, in particular calls that share futures, sequence numbers and sessions with others that were cancelled or timed out, and node lists of any length",
  ["pyzwave/zipgateway.py:ZIPGateway.getNodeList", "pyzwave/zipgateway.py:ZIPGateway.setGatewayMode", "pyzwave/zipgateway.py:ZIPGateway.setupUnsolicitedConnection", "pyzwave/zipgateway.py:ZIPGateway.connectToNode", "pyzwave/zipgateway.py:ZIPGateway.__handleNodeListReport__", "pyzwave/zipgateway.py:ZIPGateway.ipOfNode", "pyzwave/adapter.py:Adapter.sendAndReceive", "pyzwave/adapter.py:Adapter.waitForAck", "pyzwave/util.py:MessageWaiter.waitForMessage"])

p("Startup and updates end also when nothing arrives any more",
  "Whatever has happened before, every call of Application.startup() and Application.nodeListUpdated() can come to its end without any further datagram or call: when time passes, timers fire, coroutines have their turns and listeners answer what they are asked, all of the calls end, whether listeners answer or raise.",
  "every history of the gateway and the application, any number of overlapping calls of startup() and nodeListUpdated() at any stage, node lists and numbers of end points of any size",
  "needs every reachable state of overlapping updates, and answers that come while others are awaited",
  ["pyzwave/application.py:Application.startup", "pyzwave/application.py:Application.nodeListUpdated", "pyzwave/application.py:Application.loadNode", "pyzwave/application.py:Application.loadEndPointNode", "pyzwave/zipgateway.py:ZIPGateway.getNodeList", "pyzwave/zipgateway.py:ZIPGateway.getNodeInfo", "pyzwave/zipgateway.py:ZIPGateway.getMultiChannelEndPoints", "pyzwave/zipgateway.py:ZIPGateway.getMultiChannelCapability", "pyzwave/zipgateway.py:ZIPGateway.getFailedNodeList"])

p("Interviewing a node asks the node, class by class, and what the classes hold came from it",
  "When Node.interview() returns, every supported class has been interviewed by it in order, each by a call of interview() that has ended, none with an exception other than a timeout; if it raises, it raises what the interview of one class raised and the classes after that have not been interviewed by it. Whatever these interviews take for answers, and the versions of all the classes, came in datagrams from the node and end point, after questions that were sent there and acknowledged. Other classes of the node that are interviewed at the same time, through the same node object, change nothing of this: what happens to one class is always something that can happen to a class that is alone.",
  "every history of the gateway, its connections and the table of nodes, nodes with any number of classes of any kind, any number of overlapping calls of Node.interview() and of interviews of single classes",
  "needs the interleavings of interviews of all classes of a node, which share the sessions of one node object",
  ["pyzwave/node.py:Node.interview", "pyzwave/node.py:Node.sendAndReceive", "pyzwave/node.py:Node.send", "pyzwave/commandclass/CommandClass.py:interviewDecorator", "pyzwave/commandclass/CommandClass.py:CommandClass.requestVersion", "pyzwave/zipgateway.py:ZIPGateway.sendToNode"])

p("Interviews of nodes end also when nothing arrives any more",
  "Whatever has happened before, every call of Node.interview() can come to its end without any further datagram or call: when time passes, timers fire and coroutines have their turns, all of the calls end and all interviews of its classes, whether sockets that are being opened can be opened or not.",
  "every history of the gateway, its connections and the table of nodes, nodes with any number of classes of any kind, any number of overlapping calls of Node.interview() and of interviews of single classes at any stage",
  "needs every reachable state of overlapping interviews of all classes of a node",
  ["pyzwave/node.py:Node.interview", "pyzwave/node.py:Node.sendAndReceive", "pyzwave/commandclass/CommandClass.py:interviewDecorator", "pyzwave/commandclass/CommandClass.py:CommandClass.requestVersion", "pyzwave/zipgateway.py:ZIPGateway.sendToNode", "pyzwave/util.py:MessageWaiter.waitForMessage"])

p("One class does not keep the other classes of a node from being interviewed",
  "When a call of Node.interview() has ended, however it ended, it has interviewed every class the node supports: a class whose report is malformed, or whose questions fail, does not keep the following classes from being interviewed.",
  "every history of the gateway, its connections and the table of nodes, nodes with any number of classes of any kind, any reports of the node",
  "needs malformed reports and failing connections at every stage of interviews of nodes with several classes",
  ["pyzwave/node.py:Node.interview", "pyzwave/commandclass/CommandClass.py:interviewDecorator", "pyzwave/commandclass/ManufacturerSpecific.py:ManufacturerSpecific.interview", "pyzwave/zipgateway.py:ZIPGateway.connectToNode"])

p("Connecting to the gateway ends also when nothing arrives any more",
  "Whatever has happened before, every call of ZIPGateway.connect() can come to its end without any further datagram or call: when time passes, timers fire and coroutines have their turns, all of the calls end, whether the sockets of the connection and of the listener can be opened or not.",
  "every history of the gateway and its connection, any number of overlapping calls of connect() and of the other coroutines of the gateway at any stage",
  "needs every reachable state of overlapping calls of connect() and of everything they await",
  ["pyzwave/zipgateway.py:ZIPGateway.connect", "pyzwave/zipgateway.py:ZIPGateway.setGatewayMode", "pyzwave/zipgateway.py:ZIPGateway.setupUnsolicitedConnection", "pyzwave/zipgateway.py:ZIPGateway.getNodeList", "pyzwave/zipconnection.py:ZIPConnection.connect", "pyzwave/zipconnection.py:ZIPConnection.send"])

p("What the mailbox holds and sends came from nodes",
  "Every entry the mailbox stores was pushed by a node in a datagram, to the queue it is stored for, and this node has acknowledged the message that says that the entry waits. Every message of the mailbox is given to sendToNode; an entry in it was pushed to its queue in a datagram. What tells a node that an entry waits goes to the node that pushed it, and an answer goes only to a node that asked for one in a datagram. Heartbeats for an entry end only after a node acknowledged the message that hands the entry out, or when sending a heartbeat raised.",
  "every history of the gateway and its connections, any number of nodes, overlapping handlers of the mailbox and other calls of sendToNode",
  "needs the interleavings of datagrams of all nodes with the handlers, heartbeats and acknowledgements of the mailbox",
  ["pyzwave/mailbox.py:MailboxService.messageReceived", "pyzwave/mailbox.py:MailboxService.__pushQueue__", "pyzwave/mailbox.py:MailboxService.__popQueue__", "pyzwave/mailbox.py:QueueItem._runner", "pyzwave/zipgateway.py:ZIPGateway.sendToNode", "pyzwave/zipgateway.py:ZIPGateway.onMessageReceived", "pyzwave/zipgateway.py:ZIPGateway.onUnsolicitedMessage"])

p("An entry of the mailbox is handed only to the node that pushed it",
  "If the mailbox hands an entry of a queue out to a node, then this node has pushed the entry to the queue in a datagram.",
  "every history of the gateway and its connections, any number of nodes with queues of any numbers, overlapping handlers of the mailbox",
  "needs several nodes that use the mailbox, with equal numbers of queues",
  ["pyzwave/mailbox.py:MailboxService.__popQueue__", "pyzwave/mailbox.py:MailboxService.__pushQueue__", "pyzwave/mailbox.py:MailboxService.messageReceived"])

p("Handlers of the mailbox end also when nothing arrives any more",
  "Whatever has happened before, every handler of a message for the mailbox, and every send of a heartbeat, can come to its end without any further datagram or call: when time passes, timers fire and coroutines have their turns, all of them end, whether sockets that are being opened can be opened or not.",
  "every history of the gateway and its connections, any number of overlapping handlers and heartbeats of the mailbox at any stage",
  "needs every reachable state of overlapping handlers and heartbeats and of the connections to all nodes",
  ["pyzwave/mailbox.py:MailboxService.messageReceived", "pyzwave/mailbox.py:MailboxService.__pushQueue__", "pyzwave/mailbox.py:MailboxService.__popQueue__", "pyzwave/mailbox.py:QueueItem._runner", "pyzwave/zipgateway.py:ZIPGateway.sendToNode"])

p("What is known of a class after restarts came from the node",
  "However often the program is started again, with files of nodes that it has written itself: the version of a class is unknown or was in a version report of the node and end point, in this run or an earlier one, after a question for the version of this class that was sent and acknowledged; each value of Version, ManufacturerSpecific and ZwavePlusInfo was in a report of the node, in this run or an earlier one; and so were the scales of sensors of SensorMultilevel.",
  "any number of runs, in each of them every history of the gateway and its connections, with files loaded and written at any time, every YAML library that reads what it writes",
  "needs histories of several runs of the program that hand state to each other through files, with all interleavings of interviews in each of them",
  ["pyzwave/persistantstorage.py:YamlStorage.nodeAdded", "pyzwave/persistantstorage.py:YamlStorage.nodeUpdated", "pyzwave/commandclass/CommandClass.py:interviewDecorator", "pyzwave/commandclass/CommandClass.py:CommandClass.requestVersion", "pyzwave/commandclass/SensorMultilevel.py:SensorMultilevel.interview"])

p("A class that is marked as interviewed after a restart has been interviewed",
  "However often the program is started again, with files of nodes that it has written itself: a class is marked as interviewed only if an interview of it has ended without an exception, in this run or an earlier one.",
  "any number of runs, in each of them every history of the gateway and its connections, with files loaded and written at any time, every YAML library that reads what it writes",
  "needs a program that ends between the interviews of the classes of a node and is started again",
  ["pyzwave/persistantstorage.py:YamlStorage.nodeAdded", "pyzwave/persistantstorage.py:YamlStorage.nodeUpdated", "pyzwave/commandclass/CommandClass.py:interviewDecorator", "pyzwave/node.py:Node.interview"])

p("A send that takes long does not make later ones fail",
  "If no call is cancelled and fewer than 256 calls of send() are outstanding on a connection, then a call of send() with a command that can be composed does not raise at once.",
  "every history of a connection, with any number of sends, responses that say that a packet is queued, and acknowledgements in any order",
  "needs hundreds of sends while one is outstanding",
  ["pyzwave/zipconnection.py:ZIPConnection.send", "pyzwave/adapter.py:Adapter.waitForAck", "pyzwave/adapter.py:Ack.wait", "pyzwave/adapter.py:Ack.queued"])

p("A send is not ended by the acknowledgement of a later packet",
  "If send() has returned True, then an acknowledgement with the number of its packet has arrived after it was called and before another packet was sent with the same number.",
  "every history of a connection, with any number of sends, responses that say that a packet is queued, and acknowledgements in any order",
  "needs hundreds of sends while one is outstanding",
  ["pyzwave/zipconnection.py:ZIPConnection.send", "pyzwave/adapter.py:Adapter.waitForAck", "pyzwave/adapter.py:Adapter.ackReceived"])

p("Sends that have ended do not make later ones fail",
  "If all calls of send() on a connection have ended, by returning, raising or being cancelled, then a call of send() with a command that can be composed does not raise at once.",
  "every history of a connection, with any number of sends, any of which may be cancelled at any time",
  "needs a send that is cancelled and hundreds of sends after it",
  ["pyzwave/zipconnection.py:ZIPConnection.send", "pyzwave/adapter.py:Adapter.waitForAck", "pyzwave/mailbox.py:QueueItem.stop"])

p("An entry that waits is announced",
  "Every entry that the mailbox stores has a heartbeat that goes on: its node is told again and again that the entry waits, until the entry is handed out.",
  "every history of the gateway, its connections and the mailbox, with any datagrams, timeouts, cancelled calls and other calls of sendToNode()",
  "needs a stored entry and an acknowledgement that arrives at the moment of its timeout, or hundreds of sends to its node while one is outstanding",
  ["pyzwave/mailbox.py:QueueItem._runner", "pyzwave/mailbox.py:MailboxService.__pushQueue__", "pyzwave/mailbox.py:MailboxService.__popQueue__", "pyzwave/zipgateway.py:ZIPGateway.sendToNode", "pyzwave/adapter.py:Adapter.waitForAck"])

if __name__ == "__main__":
    out = os.path.join(os.path.dirname(os.path.abspath(__file__)), "..", "properties.jsonl")
    with open(out, "w") as f:
        for x in P:
            f.write(json.dumps(x) + "\n")
    print(len(P))
