import Verif.Model.Classes
/-!
# The mailbox

`mailbox.py` as a transition system. A handler of an incoming message runs until it awaits `sendToNode`; when that ends (with any result or exception) it goes on.
Heartbeat tasks sleep 60 seconds and then send. The schedule is adversarial; an operation that is not possible does nothing.

Simplifications: the logging is left out; a cancelled heartbeat task ends at once (`Task.cancel` delivers the CancelledError before the task can run on); message
attributes other than those used are not looked at.
-/
namespace Model.Mailbox
open Spec (Bytes)
open Model.Classes (numAttr)

/-! ## The checksum: crcmod's `crc-aug-ccitt` (polynomial 0x11021, initial value 0x1D0F, not reflected, no final xor) -/

/-- One bit. -/
def crcBit (c : Nat) : Nat := if 32768 ≤ c then (2 * c - 65536) ^^^ 0x1021 else 2 * c

/-- One byte. -/
def crcByte (c : Nat) (b : UInt8) : Nat := crcBit (crcBit (crcBit (crcBit (crcBit (crcBit (crcBit (crcBit (c ^^^ (b.toNat * 256)))))))))

/-- mailbox.py:28-37 -/
def checksum (data : Bytes) : Nat := data.foldl crcByte 0x1D0F

/-! ## Messages -/

/-- Mailbox.py:88-95 -/
inductive Operation
  | pop
  | waiting
  | ping
  deriving DecidableEq, Repr

/-- The value of the operation. -/
def Operation.value : Operation → Int
  | .pop => 1
  | .waiting => 2
  | .ping => 3

/-- A `Mailbox.Queue` message sent to a node. -/
structure Out where
  node : Nat
  last : Bool
  operation : Operation
  handle : Int
  entry : Option Bytes
  deriving DecidableEq, Repr

/-- The message object (mailbox.py:63-68, 95-99, 104-109, 125-130). -/
def Out.msg (o : Out) : Py Msg :=
  construct Reg.Mailbox.Queue fun n =>
    if n = "last" then some (boolVal o.last)
    else if n = "operation" then some (.num .pyint o.operation.value)
    else if n = "queueHandle" then some (.num .pyint o.handle)
    else if n = "mailboxEntry" then o.entry.map .bytes
    else none

/-- `message.mailboxEntry` -/
def entryOf (m : Msg) : Bytes :=
  match getAttr registry m "mailboxEntry" with
  | some (.bytes b) => b
  | _ => []

/-! ## State -/

/-- mailbox.py:15-26. `id` is the call that created it. -/
structure Item where
  id : Nat
  node : Nat
  handle : Int
  data : Bytes
  deriving DecidableEq, Repr

/-- Where a handler awaits `sendToNode`. -/
inductive Pc
  | popEmpty
  | pop (item : Item)
  | push (item : Item)
  | done
  deriving DecidableEq, Repr

/-- A handler of a received message. -/
structure Call where
  node : Nat
  msg : Msg
  pc : Pc
  deriving DecidableEq, Repr

/-- Where a heartbeat task is. -/
inductive BeatPc
  | sleeping
  | sending
  | ended
  deriving DecidableEq, Repr

/-- The heartbeat task of an item; `count` is `i`, the number of sleeps that ended. -/
structure Beat where
  item : Item
  count : Nat
  pc : BeatPc
  deriving DecidableEq, Repr

/-- Who sends. -/
inductive Src
  | call (i : Nat)
  | beat (j : Nat)
  deriving DecidableEq, Repr

/-- What can be observed: messages handed to `sendToNode`, and handlers that end with a result (None: not a mailbox message). -/
inductive Ev
  | sent (src : Src) (o : Out)
  | ended (i : Nat) (m : Msg) (r : Py (Option Bool))
  deriving DecidableEq, Repr

/-- mailbox.py:75-79. `queue` has a key None if a push without handle was received. -/
structure State where
  queue : Dict (Option Int) (List Item)
  lastQueueId : Option Int
  calls : List Call
  beats : List Beat
  log : List Ev
  deriving DecidableEq, Repr

/-- A new service. -/
def fresh : State := ⟨[], none, [], [], []⟩

/-- The items stored for a handle. -/
def State.items (s : State) (h : Option Int) : List Item := (s.queue.get? h).getD []

/-- A handler that ends without awaiting anything. -/
def finish (s : State) (node : Nat) (m : Msg) (r : Py (Option Bool)) : State :=
  { s with calls := s.calls ++ [⟨node, m, .done⟩], log := s.log ++ [.ended s.calls.length m r] }

/-- A handler that sends. -/
def sendNow (s : State) (node : Nat) (m : Msg) (pc : Pc) (o : Out) : State :=
  { s with calls := s.calls ++ [⟨node, m, pc⟩], log := s.log ++ [.sent (.call s.calls.length) o] }

/-- mailbox.py:90-114 until the first await. Creating a message without handle raises TypeError. -/
def popQueue (s : State) (node : Nat) (m : Msg) (handle : Option Int) : State :=
  match (s.items handle).getLast? with
  | none =>
    match handle with
    | none => finish s node m (.error .type)
    | some h => sendNow s node m .popEmpty ⟨node, true, .pop, h, none⟩
  | some item =>
    let rest := (s.items handle).dropLast
    let s := { s with queue := s.queue.set handle rest }
    match handle with
    | none => finish s node m (.error .type)
    | some h => sendNow s node m (.pop item) ⟨node, rest.isEmpty, .pop, h, some item.data⟩

/-- mailbox.py:116-135 until the first await. -/
def pushQueue (s : State) (node : Nat) (m : Msg) (handle : Option Int) (data : Bytes) : State :=
  let items := s.items handle
  let s := { s with queue := s.queue.set handle items }                  -- setdefault
  if items.any (fun x => checksum x.data == checksum data) then finish s node m (.ok (some false))
  else
    match handle with
    | none => finish s node m (.error .type)
    | some h => sendNow s node m (.push ⟨s.calls.length, node, h, data⟩) ⟨node, false, .waiting, h, some data⟩

/-- mailbox.py:137-163 until the first await. -/
def received (s : State) (node : Nat) (m : Msg) : State :=
  if m.hid = Reg.Mailbox.WakeupNotification.hid then
    popQueue { s with lastQueueId := numAttr m "queueHandle" } node m (numAttr m "queueHandle")
  else if m.hid = Reg.Mailbox.Queue.hid ∧ numAttr m "operation" = some 4 then
    let handle := match numAttr m "queueHandle" with
      | some h => if h = 0 then s.lastQueueId else some h
      | none => s.lastQueueId
    popQueue s node m handle
  else if m.hid = Reg.Mailbox.Queue.hid ∧ numAttr m "operation" = some 0 then
    pushQueue s node m (numAttr m "queueHandle") (entryOf m)
  else finish s node m (.ok none)

/-- mailbox.py:48-51 -/
def stop (beats : List Beat) (id : Nat) : List Beat := beats.map fun b => if b.item.id = id then { b with pc := .ended } else b

/-- A handler ends. -/
def endCall (s : State) (i : Nat) (c : Call) (r : Py (Option Bool)) : State :=
  { s with calls := s.calls.set i { c with pc := .done }, log := s.log ++ [.ended i c.msg r] }

/-- The `sendToNode` of handler `i` ends. -/
def sendEnds (s : State) (i : Nat) (r : Py Bool) : State :=
  match s.calls[i]? with
  | none => s
  | some c =>
    match c.pc with
    | .done => s
    | .popEmpty => endCall s i c (r.map some)                                        -- mailbox.py:93
    | .pop item =>                                                                   -- mailbox.py:111-114
      match r with
      | .error e => endCall s i c (.error e)
      | .ok b => endCall (if b then { s with beats := stop s.beats item.id } else s) i c (.ok (some true))
    | .push item =>                                                                  -- mailbox.py:132-135
      match r with
      | .error e => endCall s i c (.error e)
      | .ok b =>
        let s := if b then { s with beats := s.beats ++ [⟨item, 0, .sleeping⟩], queue := s.queue.set (some item.handle) (s.items (some item.handle) ++ [item]) } else s
        endCall s i c (.ok (some b))

/-- What can happen. -/
inductive Op
  | received (node : Nat) (m : Msg)
  | sendEnds (i : Nat) (r : Py Bool)
  | tick (j : Nat)                        -- the sleep of heartbeat task `j` ends
  | beatEnds (j : Nat) (r : Py Bool)      -- its send ends
  deriving Repr

/-- One operation. -/
def step (s : State) : Op → State
  | .received node m => received s node m
  | .sendEnds i r => sendEnds s i r
  | .tick j =>                                                                       -- mailbox.py:53-69
    match s.beats[j]? with
    | some ⟨item, n, .sleeping⟩ =>
      { s with beats := s.beats.set j ⟨item, n + 1, .sending⟩,
               log := s.log ++ [.sent (.beat j) ⟨item.node, false, if (n + 1) % 10 = 0 then .ping else .waiting, item.handle, some item.data⟩] }
    | _ => s
  | .beatEnds j r =>
    match s.beats[j]? with
    | some ⟨item, n, .sending⟩ => { s with beats := s.beats.set j ⟨item, n, match r with | .ok _ => .sleeping | .error _ => .ended⟩ }
    | _ => s

/-- A schedule. -/
def run (s : State) (ops : List Op) : State := ops.foldl step s

end Model.Mailbox
