#!/usr/bin/env python3
"""Write MANIFEST.json: collects the theorems named Cnn_... in lean/Verif/Props and adds the notes below."""
import glob, json, os, re

ROOT = os.path.dirname(os.path.dirname(os.path.abspath(__file__)))

# Properties whose full statement is not proved; everything else with theorems is "proved".
PARTIAL = {
    "C11": "Violated by the code (C11_violated). What decoding and composing gives instead is proved for every registered message and every "
           "packet (C11_covered lists them): most layouts give the packet back without trailing bytes, the others are described one by one.",
    "C12": "Violated by the code (C12_violated): an over-range value changes attributes before it in the same byte. "
           "Proved: attributes in other bytes and later attributes are unchanged, negative values raise.",
    "C19": "Violated by the code (C19_violated): only 28 of the 29 bytes of the node mask are read, nodes 225 to 232 are dropped. "
           "Proved for node ids up to 224.",
    "C20": "Violated by the code (C20_violated): masks of several bytes are read in the wrong byte order. Proved for one byte masks, "
           "and exactly which sensors are reported for longer ones.",
    "C24": "Violated by the code (C24_violated): composing leaves out the length of the supervised command. Proved: what decoding yields.",
    "C30": "Violated by the code (C30_violated): an earlier send that cleans up late removes the registration of a newer one with the same "
           "number. Proved when no unfinished send has the same number, and that a packet affects no other send.",
    "C35": "Violated by the code (C35_violated): a command arriving while its waiter is timing out is not delivered at all. Proved: exactly "
           "one delivery otherwise, responses are never delivered, other packets change nothing.",
    "C36": "Violated by the code (C36_violated): a waiting response without header extension raises AttributeError. Proved with extension.",
    "C39": "Violated by the code (C39_violated): a message arriving while its waiter is timing out raises InvalidStateError. "
           "Proved: at most one session is resolved, never twice, and the exact outcome in every reachable state.",
    "C41": "Violated by the code (C41_violated): a reply arriving before the acknowledgement is lost. Proved for replies after it.",
    "C42": "Violated by the code (C42_violated, C42_delivery_violated): a timeout cancels other callers, a finished caller removes the "
           "session of another one. Proved: all callers sharing the registered session get the message.",
    "C43": "Violated by the code (C43_violated): the command number is never reduced, the 256th command and all later ones raise OverflowError. "
           "Proved: the first 255 commands are transmitted with their numbers; every later one raises.",
    "C47": "Violated by the code (C47_violated): an advertisement is taken for the answer to any lookup in flight. Proved when no advertisement "
           "for another node arrives during the call.",
    "C82": "Violated by the code (C82_violated): the older handler, still looking up a node, adds it after the newer report removed it. "
           "Proved: after a report the table never has other nodes than those of the report and those that earlier handlers had still to look up then, and it has all nodes of the report when its handler has ended without an exception.",
    "C83": "Violated by the code (C83_violated): a node that does not answer ends the handler with TimeoutError. Proved when it ends normally.",
    "C84": "Violated by the code (C84_violated): the second connection replaces the first. Proved when no calls for a node overlap.",
    "C85": "Violated by the code (C85_violated): send() returns False instead of raising TimeoutError, and the result is ignored. Proved: the exact outcome.",
    "C88": "Violated by the code (C88_violated): a report for another node is accepted. Proved when none arrives during the call.",
    "C81": "Violated by the code (C81_violated): an acknowledgement arriving just after the timer makes send() raise KeyError. Proved: the "
           "possible outcomes and when KeyError is raised.",
    "C48": "Violated by the code (C48_violated): a list ending with 0xF1 raises IndexError. Proved: every other list is read as described.",
    "C49": "Violated by the code (C49_violated): a Supervision.Get without a command raises AttributeError and is not answered. Proved when handling "
           "the command does not raise.",
    "C52": "Violated by the code (C52_violated): entering the lock again forgets the updates so far. Proved when the lock is not entered again.",
    "C71": "Violated by the code (C71_violated): two overlapping pushes of the same entry are both stored. Proved: a push of an entry that is already stored is refused "
           "in every history; uniqueness without overlap is C70, which is proved.",
    "C72": "Violated by the code (C72_violated): the latest entry is handed out first. Proved: exactly which entry is handed out, and the order for queues that never hold "
           "more than one entry.",
    "C74": "Violated by the code (C74_violated): an entry is removed before it is sent. Proved: nothing but handing out an entry removes it.",
    "C75": "Violated by the code (C75_violated): the heartbeat of an entry whose delivery failed never ends. Proved: which heartbeats are sent, that every stored entry has a "
           "running heartbeat and that it ends with successful delivery.",
    "C76": "Violated by the code (C76_violated): entries with equal CRC are taken for duplicates. Proved when the checksums differ, and that they differ for entries "
           "that differ in at most two neighbouring bytes.",
    "C65": "Violated by the code (C65_violated): a command class that was not interviewed is marked interviewed after loading, because the text 'false' is true. "
           "Proved: a command class that was interviewed stays so.",
    "C66": "Violated by the code (C66_violated): the numbers in the command lists are loaded as texts. Proved: groups, names and profiles are restored.",
    "C67": "Violated by the code (C67_violated): after the file was opened the previous settings are gone and loading raises. Proved for stops before and after, "
           "that other nodes are never affected and that the next save repairs the file.",
    "C93": "Violated by the code (C93_violated): an acknowledgement for queue 0 before any wakeup raises TypeError. Proved in all other cases.",
    "C57": "Violated by the code (C57_violated, C57_violated_stale, C57_violated_twice): overlapping updates raise KeyError, keep nodes that have left, and load nodes twice. "
           "Proved for all interleavings: ids are unique and right, the controller is never entered, and only reported nodes are entered and announced.",
    "C94": "Violated by the code (C94_violated): if the end points of a node cannot be read the node stays in the table and is never announced. "
           "Proved for all histories of calls that do not overlap and end normally.",
    "C58": "Violated by the code (C58_violated): if the version is lost (a report of version 0, or a loaded state), an interview that cannot determine it leaves the "
           "mark of an earlier one. Proved for all histories of interviews that do not overlap.",
    "C90": "Violated by the code (C90_violated): the interview that ends first marks the class while the other still runs. Proved: the start of an interview always "
           "clears the mark and only the end of one (or loading) sets it.",
    "C59": "Violated by the code (C59_violated): a report truncated after the parameter number makes get() return 0 from then on. Proved for all other histories.",
    "C91": "Violated by the code (C91_violated): the next report is taken for the answer whichever parameter it is about. Proved when answers are for the right parameter.",
    "C77": "Violated by the code (C77_violated): length 0 makes the parser go back one byte and the length byte is taken as "
           "the start of the command. Proved: the exact (wrong) outcome.",
    "C103": "Violated: send() returns True after the connection was lost or stopped. Proved: the answer and what is sent in every state, and that nothing else is sent.",
    "C104": "Violated: the loss of the socket of an earlier connect() closes that of a later one. Proved for connections that are connected once, and that this is the only exception.",
    "C106": "Violated: the report for one class is taken as the answer for every class whose version is being asked for at that moment. Proved: the question names the class, the stored version is that of the report that was taken, and the report is for the class if no report for another class arrives after the call.",
    "C107": "Violated: only the first report is held. Proved: exactly the nodes of the first report are held, so a list that fits in one report is complete.",
    "C108": "Violated: the length of the key is missing. Proved: everything else is sent as given.",
    "C109": "Violated: a key as found in a report raises AttributeError, the two bytes of a PIN raise ValueError, a PIN as text is accepted but not sent. Proved: whole keys as bytes or text are sent, and what is refused raises before anything is sent.",
    "C112": "Violated: a datagram that arrives after stop() is handed on, and stop() during the handshake has no effect. Proved: once the thread reads, at most one more datagram is handed on.",
    "C113": "Violated: the length of the buffer is ignored, so a key longer than it is written over what follows. Proved for keys that fit.",
    "C114": "Violated: messages of unknown types are all equal, and comparing a truncated message raises AttributeError. Proved: two complete messages with a known layout are equal exactly if they are the same bytes, and then have the same type and values.",
    "C115": "Violated: a packet that promises a command and has none. Proved: exactly which datagrams raise in which states, with which exceptions, and that they change nothing for any call or listener.",
    "C116": "Violated: a report about another node is taken for this one. Proved: True means a report received during the call says a node was removed, and this one if no report about another arrives; any other status or none gives False.",
    "C117": "Violated: getNodeList() during connect() replaces the table. Proved: if nothing else changes the table every node has an address, kept or advertised during the call; each answered lookup gets on; an unanswered one makes connect() raise TimeoutError.",
    "C118": "Violated: group reports, interviews that time out and nested storage locks leave settings unsaved. Proved: exactly when the file is written; it then holds everything; and without such changes the settings are on disk whenever the storage is not locked.",
    "C119": "Violated: a report between loading and announcing a node overwrites its file before it is read. Proved for every schedule in which nothing was saved for the node before.",
    "C120": "Violated: files are never removed, so the new node gets the old one's settings. Proved: nothing is loaded for a node number that was never saved.",
    "C123": "Violated: a sendAndReceive() that ends while its command is being sent (an exception, cancellation, or a node that does not acknowledge) leaves its session behind, which takes the next message of the type. Proved: nothing else leaves one behind, and it takes only one message.",
    "C124": "Violated: the results of setGatewayMode() and of the send are ignored, so connect() returns although the gateway never answered. Proved: the order of the steps, what is transmitted, and that both hold unless no mode was reported for three seconds or a send returned False.",
    "C125": "Violated: the address is fixed, 192.168.0.49, whatever the address of this host. Proved: the port is the one that is listened on, and nothing is registered if listening failed.",
    "C131": "Violated: a name report without the name gives the group the name None. Proved: otherwise a name was loaded or came in a name report for this group from this node and end point.",
    "C132": "Violated: startup and an update that ask for two nodes at the same time wait for the same kind of report, and one gets the information of the other's node. Proved for all histories: nodes of the table were listed, and what is said of them came in a node info or capability report.",
    "C133": "Violated: a node list report that arrives by itself before the gateway was asked leaves the controller id at 0, and the controller is loaded as a node. Proved: not if the controller id is known whenever such a report arrives.",
    "C134": "Violated: a silent node ends startup with a TypeError and nodes already loaded are never announced. Proved: startup without an exception announces exactly the table, and the possible causes of an exception.",
    "C135": "Violated: the 256th question of startup raises OverflowError (C43), so networks with many multi channel nodes cannot be started. Proved: startup ends well, with the right table, for every network that needs at most 255 questions (all networks without multi channel nodes do), and fails for every other. The schedule is one in which every answer arrives before anything else happens.",
    "C137": "Violated: once 255 questions have been asked (C43) an update raises OverflowError. Proved: as long as the number of questions stays within 255 every update ends well with the right tables, and beyond it fails. The schedule is one in which every answer arrives before anything else happens, and the gateway itself is among the nodes it reports.",
    "C148": "Violated: Association is marked although the node did not tell about its groups, AssociationGrpInfo although its question was not acknowledged. Proved for Version, ManufacturerSpecific, ZwavePlusInfo and SensorMultilevel, and exactly what can be missing for the two others.",
    "C151": "Violated: Association iterates over its groups while it awaits; if an overlapping interview learns of more groups, RuntimeError is raised. Proved for the other classes in every schedule, and for Association in every schedule in which the node always reports the same number of groups.",
    "C150": "Violated: the sensor type in the report is not looked at, so a late answer is stored for the sensor that is being asked for; also in the whole network when the node only answers questions. Proved when each answer is for the sensor that was asked for, and what is held in any case.",
    "C158": "Violated: Node.interview() catches only timeouts, so a report that is too short, or a connection that cannot be opened, ends it at that class. Proved: a class is left out only after the interview of an earlier class raised something that is no timeout; and for classes that raise nothing on their own, with complete reports, a request or a send of that interview raised it.",
    "C161": "Violated: queues are found by their number alone, so a node that wakes up with the number of another node's queue gets the entry of that node, whose heartbeats then stop. Also with different numbers: an acknowledgement with queue number 0 is taken for the queue of the node that woke up last. Proved: it holds when each number is used by one node only and every acknowledgement names its queue, and when only one node uses the mailbox; and messages that only say that an entry waits always go to the node that pushed it.",
    "C164": "Violated, with every YAML library: a class that was saved before it was interviewed is marked after loading (C65), although no run has ever interviewed it. Proved: it holds if files are only written while the class is marked.",
    "C165": "Violated: the 256th send after one that is still queued raises 'Duplicate ackid used!', with only one send outstanding. Proved: a send is not refused if all but the last 255 sends have ended and were not cancelled.",
    "C166": "Violated: the packet of a send that is refused (C165) has been transmitted, and its acknowledgement makes the older send with the same number return True. Proved for sends that are not followed by 256 further ones.",
    "C167": "Violated: the number of a cancelled send stays registered until it is acknowledged, so every 256th later send raises, for ever (C167_forever); this is so in all schedules without the acknowledgement (C167_always, C167_first), also for calls of sendToNode (C167_nodes). Proved: it holds when the sends that were cancelled have been acknowledged nevertheless.",
    "C168": "Violated: an exception of sendToNode ends a heartbeat, also when its entry is still stored (C168_violated: the number of an outstanding command is taken again; C168_violated_late: the acknowledgement of a heartbeat arrives when its timer has just fired), and it is silent for ever (C168_silent). Proved: every stored entry has a heartbeat that goes on unless sendToNode raised for one of its heartbeats.",
    "C139": "Violated: nothing in the library sets isFailed. Proved: isFailed and flirs of every object stay False unless the user sets them.",
}
NOTES = {}

def main():
    found = {}
    for path in sorted(glob.glob(os.path.join(ROOT, "lean/Verif/Props/*.lean"))):
        text = open(path).read()
        stack = []
        for m in re.finditer(r"^(?:theorem (C(\d\d+)_\w+)|(namespace|section|end)\b ?(\S*))", text, re.M):
            if m.group(3) == "namespace":
                stack.append(m.group(4))
            elif m.group(3) == "section":
                stack.append("")
            elif m.group(3) == "end":
                stack.pop()
            else:
                found.setdefault("C" + m.group(2), []).append(".".join([n for n in stack if n] + [m.group(1)]))
    ids = [json.loads(l)["id"] for l in open(os.path.join(ROOT, "properties.jsonl"))]
    claims = []
    for i in ids:
        if i not in found:
            continue
        status = "partial" if i in PARTIAL else "proved"
        if status == "proved":
            bad = [t for t in found[i] if t.endswith("_partial") or t.endswith("_violated")]
            assert not bad, (i, bad)
        claims.append({"property": i, "status": status, "theorems": found[i],
                       "note": PARTIAL.get(i, NOTES.get(i, ""))})
    with open(os.path.join(ROOT, "MANIFEST.json"), "w") as f:
        f.write('{"claims": [\n' + ",\n".join(json.dumps(c) for c in claims) + "\n]}\n")
    print(len(claims), "claims; missing:", [i for i in ids if i not in found])

main()
