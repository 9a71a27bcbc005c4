# Formal model of pyzwave in Lean 4

## 1. Approach

The Python sources in `/repo/pyzwave` are modelled by small, total, computable
Lean functions that follow the Python functions branch by branch.  Python
exceptions are values (`Except PyErr`), so every `raise` in the code (and every
exception raised implicitly by a builtin: `EOFError`, `OverflowError`,
`ValueError`, `KeyError`, `IndexError`, `AttributeError`, `TypeError`, ...) is
visible in the model.  Coroutines become transition systems whose steps are the
code between two `await`s; theorems about them quantify over *all* event lists
(schedules).  asyncio guarantees that other code can run only at an `await`.

Layout of `/verif/lean/Verif`:

| directory | content |
|---|---|
| `Spec/`  | small definitions used to *state* properties, independent of the model's helpers (bit strings, big-endian numbers, wire layouts, histories, ...) |
| `Model/` | the model, every definition cites file and lines |
| `Lemmas/`| helper lemmas, no property is stated here |
| `Props/` | one file per group of properties; theorems named `Cnn_...` with a non-vacuity example next to them |

Negative results: where the code violates a property from `properties.jsonl`,
the full property is stated as a `def Cnn_statement : Prop`, its negation is proved with a
concrete witness (`Cnn_violated`), and the part that does hold is proved as
`Cnn_..._partial`.  `MANIFEST.json` says for each of them what is missing.

Tools (none is trusted by the proofs, except that `Registry.lean` must be a faithful copy of the message classes):

| file | purpose |
|---|---|
| `tools/gen_registry.py` | reads the `@ZWaveMessage` classes as text and writes `Model/Registry.lean` |
| `tools/gen_properties.py`, `tools/gen_manifest.py` | write `properties.jsonl` and `MANIFEST.json` |
| `tools/gen_axioms.py` | writes `AXIOMS.md`, the axioms of every theorem in the manifest |
| `tools/mutate.py` | seeds bugs in a scratch copy of the model, see `seeded/LOG.jsonl` |

## 2. Plan per property

| id | what is modelled | how it is proved |
|---|---|---|
| C01-C05 | `types.py` reader, writer, integer types over `List UInt8` (`Model/Stream.lean`) | refinement to an MSB-first list of booleans (`Spec/Bits.lean`); induction over write sequences |
| C06-C08, C10-C12 | all registered message definitions as a table (`Model/Registry.lean`), generic `compose`/`decode` with the `parse_*`/`compose_*` hooks (`Model/Codec.lean`) | generic induction over schemas; layouts quantified over all field values (`Spec/Layouts.lean`); facts about the whole table by kernel evaluation |
| C09 | decoder loops with explicit fuel | fuel is never exhausted; nesting depth bounded by length |
| C13-C15, C77, C78 | Z/IP packet, header extension, options (`Model/Zip.lean`, `Codec.lean`) | symbolic evaluation, induction over option lists |
| C16-C28, C79, C80 | the attribute codecs (Nodes, NodeList, SensorSupported, dsk_t, float_t, str_t, Configuration, Supervision, NodeAddStatus, AGI reports, NodeFailing, MetadataExtension) | induction over the lists/bytes; violated ones by witness |
| C29-C33, C81 | `ZIPConnection.send`, `Adapter.waitForAck`, `Ack` with any number of concurrent senders (`Model/Conn.lean`) | inductive invariants over all event lists |
| C34-C37 | `onPacket`, keep-alive timer | case analysis over all packets, invariant over histories |
| C38-C42, C89 | `MessageWaiter` with futures, waiters, timeouts; `sendAndReceive` of Adapter and Node (`Model/Waiter.lean`) | inductive invariants, violated ones by schedules |
| C43-C47, C82-C88 | `ZIPGateway` with any number of suspended calls (`Model/Gateway.lean`) | functional correctness, invariants, violated ones by schedules |
| C97 | `sendToNode`, `Node.send` with any number of overlapping calls on top of the gateway (`Model/ToNode.lean`) | each connection's history is a projection of the schedule, so the theorems about connections apply to it |
| C98 | the gateway and the application together (`Model/Wire.lean`) | composition of C35, C45, C46, C53 and C55 |
| C99 | `Node.interview` over the classes of a node, with the storage lock (`Model/NodeInterview.lean`) | invariant over all interleavings relating each call's trace to the calls of the classes |
| C100 | gateway, connections, application and the waiting calls of the node objects together (`Model/System.lean`) | projection of each schedule onto its parts, then C38, C89, C97 and the origin of every told message |
| C101 | the waiting calls of `Model/Waiter.lean` and the sends of `Model/Conn.lean` | a rank per call that every turn advances; the clock passes the deadline; induction over any schedule that contains the turns as a subsequence (theorems: C101_waiting, C101_wait, C101_sendAndReceive, C101_send, C101_queued). The responses that ask for more time may come again and again, so for send() the schedule has no further datagrams |
| C102-C104 | `Connection` and `ZipClientProtocol` on asyncio transports (`Model/Socket.lean`) | the handed datagrams equal a function of the history; case analysis of every event; violations by histories |
| C105, C107-C109 | `Meter.Report.scale`, association reports, provisioning, `addNodeDSKSet` (`Model/Meter.lean`, `Model/Classes.lean`, `Model/Dsk.lean`) | symbolic evaluation of the decoder and encoder for all fields; violations by one message |
| C106 | `requestVersion` (`Model/Version.lean`) on `sendAndReceive` (`Model/Waiter.lean`) | provenance of answers (C38, C89) and a schedule of two overlapping questions |
| C110-C113 | `DTLSConnection`: reading thread and event loop as interleaved steps, memory as a function of addresses (`Model/Dtls.lean`) | the handed datagrams equal a function of the history; invariants; violations by schedules |
| C114 | `Message.__eq__` as comparison of what `compose` gives (`Model/Equality.lean`) | round trip of encodings for all layouts; violations by witnesses |
| C115 | the receive path of a connection (`Model/Conn.lean`, `Model/Waiter.lean`) | an exact description of what raises, by cases over packets and states |
| C116 | `Node.remove` (`Model/Removal.lean`) on top of the gateway's calls | from C87, by cases on what the call returned |
| C117 | the node list part of `setupUnsolicitedConnection` (`Model/Gateway.lean`, op `setup`) | an invariant over schedules: what is in the table, what is still to be looked up, where each address came from |
| C118 | command classes, storage lock and files over time (`Model/Persist.lean` on top of `Model/Storage.lean`) | an invariant over histories: not dirty means saved; what the operations do is related to the models of interviews and of Configuration |
| C119, C120 | the same with the application and its node objects | invariants over schedules: which objects there are, which files can have changed; loading from C64 |
| C121 | the gateway's queries with the clock of the waiting calls | invariant: the deadline of a waiting call and the time of its call; the send of a query never raises TimeoutError; for the end, C101 along the turns of the gateway |
| C122 | the waiting calls and the connection with their clock | invariant: the deadline of a call against the time of the call, or of the response that asked to wait |
| C123 | the waiting calls with their sessions | violated by a schedule; invariant: a session belongs to an unfinished call, or a call for its type ended while sending |
| C124, C125 | `connect()` and `setupUnsolicitedConnection()` (`Model/Connect.lean` on top of `Model/Gateway.lean`) | violated by schedules; an invariant over schedules says how each call got where it is; what is known about connections holds for the gateway's (`Lemmas/GatewayConn.lean`) |
| C126 | `MailboxService.initialize` (`Model/MailboxInit.lean`) on a connection | the layout of the message (C07) and C29 |
| C127 | `debugString()` and the texts of values (`Model/Debug.lean`) on decoded and constructed messages | the only raising text is that of a key of odd length, and an invariant of decoding and of construction excludes it; digits are read back by a separate reader |
| C128 | `CommandClass.load`, `id`, `name`, the registered handlers (`Model/Dispatch.lean`) and `handleMessage` (`Model/Node.lean`) | case analysis; names are read back (C127); the table of messages is finite, the rest is for all messages and callbacks |
| C129 | the whole system with what the command classes of the node objects hold (`Model/Device.lean`): packets become told messages, told messages become tasks, tasks call handlers, handlers send and wait | one step changes an object only by a handler of a message that was handed to it; invariant over all schedules; origin of told messages from C100 |
| C130 | as for C129, with the reports that `supervision` sends | invariant: told messages with a report or a waiting handler are distinct and delivered |
| C131 | `__groupNameReport__` and the conversion of attributes on assignment (`Model/Device.lean`) | violated: witness; the rest by the invariant of C129 |
| C132 | `startup()` and `nodeListUpdated()` on the gateway (`Model/Boot.lean`): each adapter call is a coroutine of the gateway, which anything can interleave with | violated: witness; the rest by an invariant over the application, the gateway's coroutines (`Lemmas/Listed.lean`) and C87 |
| C133 | as for C132; `_nodeId` of the gateway | violated: witness; the same invariant with the controller's id as parameter |
| C134 | as for C132; a query without an answer returns an empty report, whose `commandClass` is None | violated: witness; invariant on the announcements of a single startup, and what can end it |
| C135 | `Spec/Peer.lean`: a gateway at the other end, as a function of the datagrams sent; `turn`: its answer arrives, step by step, and startup goes on | violated: witness of 224 multi channel nodes; the state after each turn (nothing outstanding, questions asked and to go), then C95 for the table |
| C136 | the handlers of group information reports in `Model/Device.lean`; `asked`: the calls a handler has waited for, read off the history | invariant over all schedules: each handler's calls are the questions for its own report so far, and no two waiting handlers of an object share a place |
| C137 | `Spec/Follow.lean`: the gateway of C135, which also advertises addresses and sends node list reports; `Settled`: what holds between two reports | violated: witness of 223 multi channel nodes that join; phases of an update (lookups, removing, loading, announcing), each by induction; then C53 and C54; `Settled` holds after startup and again after every update |
| C138 | properties of `Node` and `NodeEndPoint` (`Model/Attributes.lean`); `Spec/Attributes.lean`: the history of writes | the heap holds the last write of every attribute: invariant over histories |
| C139 | the same | violated: nothing sets `isFailed`; what holds: it stays False unless the user sets it |
| C140 | `Model/System.lean`; `Disturbs`: what gets in the way of a call | C30 on the connection of the node gives the result of the send; until then the call is untouched; after that it can still be answered or its time is over (`Hopeful`, `Late`); the report is told and handed to the object (as in C98) and ends the call |
| C141 | the options of the header extension (`Model/Zip.lean`); `lastEncapsulation` | the lemma about lists of options (C14) extended by the third type |
| C142 | binary64 floats as rational numbers (`Model/Float.lean`); `IsDouble`, `Closest` | the rounded number is within half a unit, no other float is that close (`Lemmas/Float.lean`, with Mathlib's tactics for rational numbers) |
| C143 | `Spec/InTime.lean`: what may happen in time (`Fine`), the state before (`Ready`); the gateway at the other end is that of C135 | stages: a question is asked, its answer is there, the listeners are told; each is kept by every operation that is in time or goes on to the next (`Lemmas/InTimeConn`, `InTimeGateway`, `InTime`); liveness by induction on the number of questions left. `nodeListUpdated()` is not run meanwhile, and nobody else asks the gateway |
| C144 | `Spec/InTime.lean`: `InTimeFor` (what may happen while a call runs), `Between` (no call runs), `Informed` (the gateway has a new list and has said so) | the stages of C143, with those of removing nodes before them (`Lemmas/InTimeUpdate.lean`); C53 and C54 for what has ended; `Between` holds after startup, after an update and is kept by what happens to the gateway in time |
| C145 | `Spec/Late.lean`: `effects` (what takes effect, in which order) and `events` (what happened) | `Model/Late.lean`: a layer with a queue of tasks on any model; induction over the schedule gives the same states as the model below on `effects`, so everything proved of all states of the gateway holds; C44 and C45 carry over |
| C146 | `Spec/Truthful.lean`: `Answers` (what a node that answers makes happen), `Known` | invariant on each class (which calls there can be, that the version is unknown or right); C99 for which classes were visited; completion by induction on the classes left |
| C147 | `Spec/Ask.lean`: whom a call told, what they answered and the first exception, read off a trace | `Model/Ask.lean`: `Listenable` with suspended coroutines and overlapping calls; invariant relating the futures of a call to the trace |
| C148 | `Spec/Body.lean`: `Marks`, `Settled`, `Honest` | `Model/Body.lean`: interviews as programs that ask and send, with interference while they wait; a rule for each construct, induction over loops; without interference they agree with `Model/Classes.lean` |
| C149 | `Spec/ClassRun.lean`: `itemsOf` (what a call asked and sent), `reports`, `EndedWell` | `Model/ClassRun.lean`: the decorator around the programs of C148, with overlapping interviews that share the attributes; invariant: what remains of each call is reached from its program by the answers in the trace |
| C150 | `Spec/ClassRun.lean`: `scales` | as for C149; violated: witness with one late answer; the rest by an invariant on what SensorMultilevel can wait for; violated also in the whole network (`Props/ClassNetLate.lean`), by a node which answers each question only once |
| C151 | `Spec/Innocent.lean`: `Whole`, `Blames`, `NeverRaises` | the programs of `Model/Body.lean` are checked step by step; the trace of each call in `Model/ClassRun.lean` is one execution of the program; violated: witness with two interviews of Association |
| C152 | `Spec/ClassNet.lean`: `Life`, `Said`, `Acknowledged` | `Model/ClassNet.lean` puts the command class of `Model/ClassRun.lean` into the system of `Model/System.lean`; what a call awaits is a call of C100, so the answers are those of C100; what a program writes is checked against the answers (`Keeps`) |
| C153 | `Spec/Silence.lean`: `turn` (time passes, timers fire, coroutines have their turns; sockets can be opened or cannot) | for every program of a class and every history; from the bottom up: a send on a connection ends after ticks, its timer and its turns, so does a look-up of an address (`Looks`: every coroutine that looks up an address waits in a call with a timeout), a call of `sendToNode`, a call of `sendAndReceive`; every call of `interview()` that has not ended awaits one of these (`Served`, `Ready`); then by induction on the rest of the program. Done calls stay done, so all of them end together. This says that no call can be stuck for good; that turns are taken is asyncio's part |
| C154 | `Spec/Silence.lean`: `gatewayTurn` | for every history of the gateway; every coroutine that has not ended awaits a send or a call with a timeout that exist (`AllAwaited`, an invariant over all operations), and both end after ticks, their timer and their turns; coroutines that look up addresses one after the other by induction on the nodes that are left; the turns begin no coroutine and those that are done stay so, so all of them end together |
| C155 | `Spec/Silence.lean`: `bootTurn` | for every history of gateway and application; a call that asks the gateway waits for the coroutine that was started for it (`Linked`), which ends (C154) with a value the call can use (from C87); every answer takes a call closer to its end in a well-founded order (`rank`: stage, nodes left, what is asked of the node, end points left); the number of nodes and end points is whatever was reported |
| C156 | `Spec/NodeNet.lean`: `Life`, `Said`, `Acknowledged`; `Spec/NodeInterview.lean`: `visits`, `Passes` | `Model/NodeNet.lean` puts `Node.interview` with all classes of a node into the system of `Model/System.lean`, each class with attributes of its own type; two projections: a history of the node is for each class a history of that class alone (`View`; what other classes do are asks and sends of the system), so C152 holds for all of them; and it is a history of `Model/NodeInterview.lean` (`Same`), so C99 holds |
| C157 | `Spec/Silence.lean`: `nodeTurn` | what a call of `Node.interview()` awaits exists (`held`) and ends by C153 and the projection of C156, the turns of a class being turns of the node (`lift`); then by induction on the classes that are left |
| C158 | `Spec/NodeNet.lean`, `Spec/Innocent.lean` | violated: two witnesses in the network of C156; the rest from C156 and C151 through the projections of C156 |
| C159 | `Spec/Silence.lean`: `connectTurn` | what a call of `connect()` awaits exists (`there`); coroutines and sends of the gateway end by C154 (`job_turn`, `send_turn`), the turns of the gateway leaving the calls where they are; then the stages of `connect()` from the last to the first |
| C160 | `Spec/MailNet.lean`: `Heard`, `Came`, `Acknowledged` | `Model/MailNet.lean` makes the mailbox of `Model/Mailbox.lean` a listener of the gateway with its connections (`Model/ToNode.lean`); an invariant (`Good`) says for each handler, heartbeat and sent message where it comes from; the messages told to listeners are traced to datagrams (`heardFrom`) |
| C161 | `Spec/MailNet.lean`: `Pushed` | violated: witnesses with two nodes, with equal and with different queue numbers; the rest from C160, with an owner for each number |
| C162 | `Spec/Silence.lean`: `mailTurn` | what a handler or heartbeat awaits is a call of `sendToNode` (C160's invariant), which ends as in C153; then the handler has its turn |
| C163 | `Spec/Restarts.lean`: `Runs`, `FromFile`, `Was` | lives of a class (C152) in a row, each of which loads only files that were written by an earlier life or earlier in the same one (C64's writing and loading); `always` is induction over the lives and over the operations of the last one, each step from C152 with a load that keeps what held |
| C164 | `Spec/Restarts.lean`, `EndedWell` of C149 | violated: witness with two lives; the rest from `always` and C149 |
| C165-C167 | `Spec/Conn.lean`: `AckFor` | violated: schedules with 257 sends (C167 also for ever), by induction over the sends (`w_round`, `w_turns`); the rest from C32, C33 and C29 |
| C168 | `Props/Announced.lean`: `Raised` | violated: one schedule with 257 sends; the rest by induction over the schedule, from the invariant of C75 (`runs_step`) and what is known of the sends of heartbeats (`Good`) |
| C48-C52 | `Node` (`Model/Node.lean`) | refinement to a declarative parse, case analysis, invariants |
| C53-C57, C94, C95 | `Application` (`Model/Application.lean`) | invariants over all interleavings of updates; exact outcome without overlap; schedules for the violated ones |
| C58, C90 | `interviewDecorator`, `requestVersion` (`Model/Interview.lean`) | invariants over schedules; exact outcome of one interview |
| C59-C63, C91, C92 | stateful command classes (`Model/Classes.lean`) | invariants over report histories |
| C64-C67, C96 | `__getstate__`/`__setstate__`, `YamlStorage` (`Model/Storage.lean`); the YAML library is a parameter with stated laws | round-trip by induction over dicts; crash points listed; induction over sequences of saves |
| C68 | `Listenable.speak` and `ask` (`Model/Listen.lean`) | induction over listeners |
| C69-C76, C93 | `MailboxService` transition system (`Model/Mailbox.lean`) | invariants over all interleavings; violated ones by schedules; CRC by linearity over GF(2) |

Every property of the list is expressed in the model; none is `not_applicable`.

## 3. What is modelled, and what is not

| file | modelled | not modelled |
|---|---|---|
| `types.py` | all reader, writer and attribute types; a decoded `float_t` is kept as mantissa and precision, the float it stands for is in `Model/Float.lean` | subnormal numbers and overflow of floats |
| `message.py` | all | |
| `util.py` | all | logging |
| `commandclass/*` messages | every registered message, by the generated table, and all hooks | |
| `commandclass/*` classes | Association, AssociationGrpInfo, Configuration, Meter, SensorMultilevel, Version, ManufacturerSpecific, ZwavePlusInfo, `CommandClass` | |
| `adapter.py` | `Ack`, `ackReceived`, `commandReceived`, `waitForAck`, `sendAndReceive` | abstract methods |
| `zipconnection.py` | all but closing | errors of the socket |
| `zipgateway.py` | all but closing (`Model/Gateway.lean`, `Model/Connect.lean`) | link-local senders with a scope id |
| `connection.py` | all (`Model/Socket.lean`; in the other models datagrams are inputs and outputs) | the operating system's sockets |
| `dtlsconnection.py` | all but creating the socket (`Model/Dtls.lean`; it is not used by the other modules) | OpenSSL |
| `node.py` | node information, message handling, storage lock, `sendAndReceive`, `interview` | properties that return a stored value |
| `application.py` | all | |
| `mailbox.py` | all (`Model/Mailbox.lean`; as a listener of the gateway `Model/MailNet.lean`) | |
| `persistantstorage.py` | all | PyYAML (assumed: laws of `Model.Storage.Yaml`), creating directories, file permissions |

Assumptions about Python and asyncio, made wherever coroutines are modelled:

* A coroutine runs without interruption between two `await`s.  Which released coroutine runs next, when packets arrive and when timers fire is decided by an adversarial
  schedule, so asyncio's actual (FIFO) order is one of the orders covered.  Properties that hold are proved for all of them.  The schedules that witness violations only use orders that
  asyncio can produce.
* `asyncio.wait_for` is that of Python 3.7 and 3.8 (the versions the project names).
* Timeouts are events that may happen at any moment a waiter is suspended; wall-clock time is only used where a property mentions it (C31, C37).
* No recursion limit, no memory limit, no cancellation of calls from outside, no KeyboardInterrupt.
* Floats are IEEE 754 binary64, rounded to nearest with ties to even, and `math.pow(10, n)` is exact for `n` up to 7 (C142).
* Integers are unbounded, as in Python; dicts keep insertion order; sets are iterated in an arbitrary order chosen by the schedule.
* In `Model/Listen.lean` a coroutine callback runs as a whole; `Model/Ask.lean` (C147) has the general case.
* In `Model/Classes.lean` what a `sendAndReceive` gives is an argument, any report or exception; which ones it can give is the subject of C38-C42.

Simplifications of single functions are stated in the comment of the definition.

## 4. Where the code does not do what its user would expect

Each item is a theorem (`Cnn_violated` unless named otherwise).

1. C11: two message definitions have several reserved attributes with the same name `-`; decoding and composing again does not give the packet back.  Header extensions are never serialised and the payload of unknown messages is dropped.  What every registered message gives instead is in `Props/Clashing.lean`: twelve messages never compose after decoding, a supervised command loses its length, reserved bits of a Z/IP packet are written over its flags.
2. C12: a sub-byte attribute that is too large overwrites its neighbours in the byte.
3. C19: only 28 of 29 bytes of the node mask are read; nodes 225 to 232 do not exist for pyzwave.
4. C20: sensor masks of more than one byte are read in the wrong byte order.
5. C24: composing a `Supervision.Get` leaves out the length of the command.
6. C23 (proved, both directions): `Configuration.Set` cannot be decoded and `Configuration.Report` cannot be encoded; negative values raise `OverflowError`.
7. C15 (proved): a packet with a header option of a type other than expected delay, maintenance report and encapsulation format information cannot be decoded, although the option types 2 and 5 are defined; C77: a header extension of length 0 is accepted and the command is read from the wrong position.
8. C30, C81: the timer and the acknowledgement race; an earlier `send()` that ends late removes the registration of a newer one, and `send()` can raise `KeyError`.
9. C35, C39: a message that arrives while its waiter is timing out raises `InvalidStateError` and is lost.
10. C36: a waiting response without header extension raises `AttributeError`.
11. C41: `Node.sendAndReceive` registers a session before sending but then waits on a new one; a reply that arrives before the command is acknowledged is lost.
12. C42: a timeout of one waiter cancels the others for the same message type.
13. C43: after 255 network management commands every further one raises `OverflowError`.
14. C47, C88: answers for another node are taken for the answer; C82: with overlapping node list reports the older one can win; C83: an unanswered lookup means that listeners are never told; C84: overlapping `connectToNode` calls leave a connection whose messages are dropped; C85: `addNode` and others return True although nothing was acknowledged.
15. C48: a command class list that ends with a security mark byte 0xF1 raises `IndexError`.
16. C49: a `Supervision.Get` without command raises and is not answered.
17. C52: entering the storage lock again forgets updates.
18. C57, C94: overlapping node list updates raise `KeyError`, keep removed nodes or load nodes twice; a node whose end point query fails is in the table but is never announced.
19. C58, C90: a failed version query leaves the old interviewed mark; overlapping interviews mark a class while it is interviewed.
20. C59: a truncated configuration report is cached as 0; C91: `Configuration.get` returns the report of any parameter.
21. C65: a class that was not interviewed is marked interviewed after loading; C66: group command lists are loaded as texts; C67: a crash while saving loses the settings, and loading then raises.
22. C71, C72, C74, C75, C76, C93: the mailbox stores duplicates of overlapping pushes, hands out the latest entry first, loses entries whose delivery fails and then sends heartbeats for ever, takes entries with equal CRC for duplicates, and raises for an acknowledgement of queue 0 before any wakeup.
23. C103: `Connection.send()` returns True after the connection was lost or stopped; C104: when the socket of an earlier `connect()` is lost, the socket of the later one is closed.
24. C106: the report for one class is taken as the version of every class whose version is being asked for at that moment.
25. C107: `reportsToFollow` is ignored: of an association list in several reports only the first is held.
26. C108: `NodeProvisioning.Set` has no length before the key (the same holds for `IncludedNIFReport`).
27. C109: `addNodeDSKSet()` refuses the `dsk_t` objects of its signature and the bytes of a PIN; given a PIN as text, it sends none.
28. C112: `DTLSConnection.stop()` takes effect only after the next datagram, and not at all during the handshake; C113: a pre-shared key longer than OpenSSL's buffer is written past its end.
29. C114: all messages of unknown types are equal, and comparing a truncated message raises AttributeError. C115: a Z/IP packet that says it has a command and has none, a "waiting" response without a usable delay for an outstanding send, and a message for a call that has just timed out make the receive path raise.
30. C116: overlapping `remove()` calls take each other's reports. C117: `getNodeList()` called while `connect()` waits for the list replaces the table after the addresses have been found; one node that does not answer its lookup makes `connect()` raise TimeoutError.
31. C118: what AssociationGrpInfo learns, what an interview learned before it timed out, what an incomplete configuration report sets, and what was learned in a storage lock when another one is entered before it is left, is not saved (until something else is). C119: a node is in the table, and the storage listens to it, before its file has been read; a version or configuration report in between writes the node without its settings over the file. C120: files of removed nodes stay, and a new node with the same number gets the settings in them.
32. C123: `Adapter.sendAndReceive` and `Node.sendAndReceive` register a session before sending. If the send raises, is cancelled or (for a node) is not acknowledged, the session stays: the next message of that type is counted as handled, no listener hears of it, and if it was supervised the node is told that it succeeded.
33. C124: `connect()` looks neither at the result of `setGatewayMode()` nor at that of the send that registers the destination: with a gateway that never answers it returns after 15 seconds as if all was well.
34. C125: the address that is registered for unsolicited messages is always 192.168.0.49.
35. C131: a group name report that ends before the name (`59 02 g`) names the group `None`, since None is converted with `str`.
36. C132: queries of an overlapping startup and update share the future for NodeInfoCachedReport; a report answers both, and one node gets the information of another.
37. C133: an unsolicited node list report does not set the gateway's `_nodeId`, and `getNodeList()` does not ask once the table is filled; the controller is loaded as a node.
38. C134: `list(None)` for a node info report that did not arrive, or has no command classes, ends startup with a TypeError; nothing is announced.
39. C135: `_nmSeq` is only ever incremented (C43), so startup raises OverflowError instead of asking its 256th question; a network of 130 multi channel nodes needs more.
40. C137: for the same reason an update raises OverflowError once 255 questions have been asked since the connection was made; from then on new nodes are not loaded any more.
41. C139: a node that the controller lists as failing is not marked: the list is asked for and logged at startup, but `isFailed` is never set (nor is `flirs`).
42. C148: AssociationGrpInfo is marked as interviewed although the node did not acknowledge its question, and Association although no answer about a group came (`C148_violated_silent`).
43. C150: `SensorMultilevel.interview` does not compare the sensor type of a report with the one it asked for; an answer that comes too late for one interview is stored in the next one as the scales of another sensor, and then readings of that sensor are suppressed or accepted wrongly (C60). `C150_network_violated` shows this from the datagrams: a node that sends no more reports for a sensor than it was asked for.
44. C151: `Association.interview` awaits inside `for identifier in self.groupings`; if another interview of the same class is told of more groups meanwhile, the loop raises `RuntimeError: dictionary changed size during iteration`; `Node.interview` catches only timeouts, so it ends that interview of the node as well.
45. C158: `Node.interview` catches only `asyncio.TimeoutError`; a report of one class that is too short (`TypeError` from an attribute that is `None`) or a connection to the node that cannot be opened ends the interview of the node, and the classes after that one are not interviewed.
46. C161: `MailboxService._queue` has only the number of the queue as key; a node that wakes up, or acknowledges an entry, with the number of a queue of another node gets the entry the other node pushed, and the heartbeats for that entry stop.  An acknowledgement with queue number 0 is taken for the queue of whichever node woke up last (`_lastQueueId`), so the same happens when all numbers differ (`C161_violated_unnamed`).
47. C164: the file of a node is written, with all its classes, whenever one class has been interviewed, and every class in the file is marked as interviewed when it is loaded (C65); a program that ends before all classes of a node were interviewed finds, when it is started again, classes marked that nobody has ever asked anything, so a program that interviews what is not marked leaves them out.
48. C165, C166: the number of a send that the gateway has queued stays registered until it is acknowledged or its delay is over, which can take months (say, because the acknowledgement got lost). The 256th send after it raises `Exception("Duplicate ackid used!")`, although nothing else is outstanding; its packet has been transmitted before that, and the acknowledgement of this packet then makes the old send return True.
49. C167: `waitForAck` removes the number of its command only after a timeout, not when it is cancelled. A cancelled command that is never acknowledged makes every 256th later send on that connection raise, for ever (`C167_forever`; `C167_always` for all schedules, `C167_nodes` for calls of `sendToNode`). The library does this to itself: handing out an entry of the mailbox cancels the heartbeat, which may be sending.
50. C168: nothing catches an exception in the task of a heartbeat. If a heartbeat is acknowledged when its timer has just fired, it raises KeyError (C81; `C168_violated_late`); if a command for a node is outstanding, a heartbeat that gets its number raises (C165; `C168_violated`). The entry stays stored, and no heartbeat is ever sent for it again (`C168_silent`).

## 5. Trusted base

* Lean 4.33.0's kernel.  `vcheck` replays all declarations.
* The axioms `propext`, `Classical.choice`, `Quot.sound` at most; `AXIOMS.md` lists them for each theorem.  No `sorry`, no own axioms, no `native_decide` or `bv_decide`.
* The faithfulness of the model to the Python text: each definition cites the lines it models and says where it simplifies.
* As a check of that faithfulness, `Props/Vectors.lean` and `Props/VectorsState.lean` run the model on the inputs of the project's own tests (`/repo/tests`, read as text) and compare with what the tests
  expect, file by file.  All agree.  Without counterpart are tests of abstract methods (`NotImplementedError`), of mocks, and calls with kinds of arguments the model does not have (an `int` as IPv6 address,
  a list as node mask).  These examples prove nothing about other inputs and are left out when bugs are seeded: a bug must be noticed by a theorem.
* For C64-C67 and C96 the laws of the YAML library in `Model.Storage.Yaml`; `Props.Storage.plain` shows they are consistent.

## 6. Handling of the source tree

The code is read as text only.  One slip, on Nov 16 2026: a Python one-liner for listing `properties.jsonl` was started in `/repo/pyzwave`, so the interpreter found that directory's `types.py` instead of
its own `types` module, began importing it, and failed on a circular import.  It wrote `/repo/pyzwave/__pycache__/types.cpython-311.pyc`, which has been removed; no source file was touched, and nothing
in the model or the proofs rests on that run.
