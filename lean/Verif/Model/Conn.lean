import Verif.Model.Zip
import Verif.Model.Waiter
/-!
# A Z/IP connection

`Ack`, `Adapter.ackReceived`, `Adapter.commandReceived`, `Adapter.waitForAck` (adapter.py) and `ZIPConnection` (zipconnection.py) under asyncio, with
a perfect datagram socket whose transmitted datagrams are recorded. The adversary decides (a schedule, as in `Model/Waiter.lean`) when packets
arrive, when time passes, when timers fire and when released tasks run.

`Ack.wait` waits with `wait_for` for an inner task that waits for the event. asyncio runs ready callbacks in FIFO order, so if the event is set before the
timer releases the caller then the inner task ends before the caller runs; if it is set after that, the caller runs first and cancels the inner
task. The inner task is therefore represented by the flag `inner` ("done by the time the caller runs").

Not modelled: errors of the socket, closing the connection, Python's recursion limit when decoding, exceptions from listeners (C68).
-/
namespace Model.Conn
open Spec (Bytes)

/-- adapter.py:27-32 -/
inductive Status
  | pending | queued | received
  deriving DecidableEq, Repr

/-- Where a caller of `send` is suspended. -/
inductive Pc
  | waiting                 -- in wait_for, not released by the timer
  | timedOut                -- in wait_for, released by the timer, has not run yet
  | cancelling              -- in wait_for, waiting for the inner task to be cancelled
  | done (r : Py Bool)      -- returned or raised
  deriving DecidableEq, Repr

/-- One call of `ZIPConnection.send` with its `Ack` object (adapter.py:34-37). -/
structure Send where
  seq : Nat
  pc : Pc
  status : Status
  delay : Int
  inner : Bool
  deadline : Nat
  deriving DecidableEq, Repr

/-- The connection. `ackQueue` maps sequence numbers to calls of `send`. `timers` are the armed keep-alive timers of the event loop (id and time),
`keepAlive` is the handle in `_keepAlive`. `out` are the transmitted datagrams, `heard` the messages spoken to the listeners. -/
structure State where
  seq : Nat
  ackQueue : Dict Int Nat
  sends : List Send
  w : Waiter.State
  connected : Bool
  keepAlive : Option Nat
  timers : Dict Nat Nat
  nextTimer : Nat
  out : List Bytes
  heard : List Msg
  deriving DecidableEq, Repr

/-- adapter.py:68-71, zipconnection.py:23-30 -/
def init : State := ⟨0, [], [], Waiter.init, false, none, [], 0, [], []⟩

/-- The clock is shared with the waiting calls. -/
def State.now (s : State) : Nat := s.w.now

/-- adapter.py:39-42: the event is set. -/
def Send.received (t : Send) : Send := { t with status := .received, inner := t.inner || t.pc = .waiting }

/-- adapter.py:44-53 -/
def Send.queued (t : Send) (expectedDelay : Int) : Send :=
  { t with delay := (if expectedDelay < 0 then 120 else expectedDelay) + 60, status := .queued, inner := t.inner || t.pc = .waiting }

/-- `self._ackQueue.get(ackId)`. A packet that ends before the sequence number has `ackId = None`, which is never registered. -/
def lookup (s : State) (p : Msg) : Option Nat :=
  match p.num? "seqNo" with
  | none => none
  | some v => s.ackQueue.get? v

/-- adapter.py:73-88 -/
def ackReceived (s : State) (p : Msg) : State × Py Bool :=
  if p.flag "nackResponse" ∧ p.flag "nackWaiting" then
    match lookup s p with
    | none => (s, .ok false)
    | some i =>
      match s.sends[i]? with
      | none => (s, .ok false)        -- not reachable
      | some t =>
        match p.attr "headerExtension" with
        | some (.hdr d) =>
          match expectedDelay d with
          | .ok v => ({ s with sends := s.sends.set i (t.queued v) }, .ok true)
          | .error e => (s, .error e)
        | _ => (s, .error .attribute)   -- the default is a plain dict, which has no `expectedDelay`
  else
    match p.num? "seqNo" with
    | none => (s, .ok false)
    | some v =>
      match s.ackQueue.get? v with
      | none => (s, .ok false)
      | some i =>
        match s.sends[i]? with
        | none => (s, .ok false)      -- not reachable
        | some t => ({ s with ackQueue := s.ackQueue.erase v, sends := s.sends.set i t.received }, .ok true)

/-- adapter.py:120-127. A Z/IP packet without a command has `command = None`; `None.hid()` raises AttributeError. -/
def commandReceived (s : State) (cmd : Msg) : State × Py Unit :=
  match (if cmd.hid = 0x2302 then cmd.command else some cmd) with
  | none => (s, .error .attribute)
  | some msg =>
    match Waiter.messageReceived s.w msg with
    | (w, .ok true) => ({ s with w := w }, .ok ())
    | (w, .ok false) => ({ s with w := w, heard := s.heard ++ [cmd] }, .ok ())
    | (w, .error e) => ({ s with w := w }, .error e)

/-- zipconnection.py:77-115 -/
def onPacket (s : State) (pkt : Bytes) : State × Py Bool :=
  match decode pkt with
  | .error _ => (s, .ok false)
  | .ok p =>
    if p.hid = 0x2302 then
      if p.flag "ackResponse" then
        match ackReceived s p with
        | (s, .ok _) => (s, .ok true)
        | (s, .error e) => (s, .error e)
      else if p.flag "nackResponse" then
        if p.flag "nackWaiting" then
          match ackReceived s p with
          | (s, .ok _) => (s, .ok true)
          | (s, .error e) => (s, .error e)
        else (s, .ok false)
      else if p.flag "ackRequest" then (s, .ok false)
      else if p.flag "zwCmdIncluded" then
        match commandReceived s p with
        | (s, .ok _) => (s, .ok true)
        | (s, .error e) => (s, .error e)
      else (s, .ok true)
    else if p.hid = 0x2303 then (s, .ok (p.flag "ackResponse"))
    else if p.hid = 0x5801 then
      match commandReceived s p with
      | (s, .ok _) => (s, .ok true)
      | (s, .error e) => (s, .error e)
    else (s, .ok false)

/-- connection.py:77-83 -/
def transmit (s : State) (b : Bytes) : State := if s.connected then { s with out := s.out ++ [b] } else s

/-- zipconnection.py:133-138. Cancelling a timer that has fired has no effect. -/
def resetKeepAlive (s : State) : State :=
  let timers := match s.keepAlive with
    | some k => s.timers.erase k
    | none => s.timers
  { s with keepAlive := some s.nextTimer, timers := timers.set s.nextTimer (s.now + 25), nextTimer := s.nextTimer + 1 }

/-- zipconnection.py:143-158: the packet. -/
def packetFor (seq : Nat) (sourceEP destEP : Int) (cmd : Msg) : Py Msg :=
  constructZip (fun n =>
    if n = "ackRequest" then some (boolVal true)
    else if n = "ackResponse" then some (boolVal false)
    else if n = "nackResponse" then some (boolVal false)
    else if n = "nackWaiting" then some (boolVal false)
    else if n = "nackQueueFull" then some (boolVal false)
    else if n = "nackOptionError" then some (boolVal false)
    else if n = "headerExtIncluded" then some (boolVal false)
    else if n = "zwCmdIncluded" then some (boolVal true)
    else if n = "moreInformation" then some (boolVal false)
    else if n = "secureOrigin" then some (boolVal true)
    else if n = "seqNo" then some (.num .pyint seq)
    else if n = "sourceEP" then some (.num .pyint sourceEP)
    else if n = "destEP" then some (.num .pyint destEP)
    else none) cmd

/-- zipconnection.py:159-161 and adapter.py:226-233: `pkt` is the result of composing the packet. -/
def transmitAndWait (s : State) (pkt : Py Bytes) (timeout : Nat) : State :=
  match pkt with
  | .error e => { s with sends := s.sends ++ [⟨s.seq, .done (.error e), .pending, 0, false, 0⟩] }
  | .ok b =>
    let s := resetKeepAlive (transmit s b)
    if s.ackQueue.mem (s.seq : Int) then
      { s with sends := s.sends ++ [⟨s.seq, .done (.error .duplicateAck), .pending, 0, false, 0⟩] }
    else
      { s with ackQueue := s.ackQueue.set (s.seq : Int) s.sends.length,
               sends := s.sends ++ [⟨s.seq, .waiting, .pending, 0, false, s.now + timeout⟩] }

/-- zipconnection.py:141-161, up to the first suspension. -/
def send (s : State) (cmd : Msg) (sourceEP destEP : Int) (timeout : Nat) : State :=
  let seq := (s.seq + 1) % 256
  transmitAndWait { s with seq := seq } ((packetFor seq sourceEP destEP cmd).bind compose) timeout

/-- zipconnection.py:71-75: the datagram of `ZipKeepAlive(ackRequest=True, ackResponse=False)`. -/
def keepAlivePacket : Py Bytes :=
  (do
    let a ← initAttrs (fun n => if n = "ackRequest" then some (boolVal true) else if n = "ackResponse" then some (boolVal false) else none)
      Reg.Zip.ZipKeepAlive.fields []
    pure (Msg.known Reg.Zip.ZipKeepAlive.hid a)).bind compose

/-- zipconnection.py:71-75. An exception would end up in the event loop. -/
def keepAlive (s : State) (pkt : Py Bytes := keepAlivePacket) : State :=
  match pkt with
  | .ok b => resetKeepAlive (transmit s b)
  | .error _ => s

/-- Operations of a schedule. -/
inductive Op
  | connect                                                 -- connect() completes
  | send (cmd : Msg) (sourceEP destEP : Int) (timeout : Nat)
  | packet (b : Bytes)                                      -- a datagram arrives
  | tick                                                    -- a second passes
  | timer (i : Nat)                                         -- the timer of wait_for in send `i` fires
  | resume (i : Nat)                                        -- the caller of send `i` runs
  | cancelled (i : Nat)                                     -- the caller of send `i` runs after its inner task has been cancelled
  | kill (i : Nat)                                          -- the task that called send `i` is cancelled
  | fire (k : Nat)                                          -- the keep-alive timer `k` fires
  | waiter (o : Waiter.Op)                                  -- a caller waiting for a message does something
  deriving DecidableEq, Repr

/-- One operation. -/
def step (s : State) : Op → State
  | .connect => resetKeepAlive { s with connected := true }             -- zipconnection.py:48-50
  | .send cmd src dst timeout => send s cmd src dst timeout
  | .packet b => (onPacket s b).1
  | .tick => { s with w := Waiter.step s.w .tick }
  | .timer i =>
    match s.sends[i]? with
    | none => s
    | some t => if t.pc = .waiting ∧ t.deadline ≤ s.now then { s with sends := s.sends.set i { t with pc := .timedOut } } else s
  | .resume i =>
    match s.sends[i]? with
    | none => s
    | some t =>
      if t.inner ∧ (t.pc = .waiting ∨ t.pc = .timedOut) then
        if t.status = .queued then
          -- adapter.py:60-62
          { s with sends := s.sends.set i { t with pc := .waiting, inner := false, deadline := s.now + t.delay.toNat } }
        else { s with sends := s.sends.set i { t with pc := .done (.ok true) } }     -- zipconnection.py:164
      else if t.pc = .timedOut then { s with sends := s.sends.set i { t with pc := .cancelling } }
      else s
  | .cancelled i =>
    match s.sends[i]? with
    | none => s
    | some t =>
      if t.pc = .cancelling then
        -- adapter.py:234-237, zipconnection.py:162-163
        if s.ackQueue.mem (t.seq : Int) then
          { s with ackQueue := s.ackQueue.erase (t.seq : Int), sends := s.sends.set i { t with pc := .done (.ok false) } }
        else { s with sends := s.sends.set i { t with pc := .done (.error .key) } }
      else s
  | .kill i =>
    match s.sends[i]? with
    | none => s
    | some t =>
      match t.pc with
      | .done _ => s
      | _ => { s with sends := s.sends.set i { t with pc := .done (.error .cancelled) } }
  | .fire k =>
    match s.timers.get? k with
    | none => s
    | some due => if due ≤ s.now then keepAlive { s with timers := s.timers.erase k } else s
  | .waiter o =>
    match o with
    | .message _ => s     -- messages arrive in packets
    | .tick => s          -- the clock is advanced by `tick`
    | o => { s with w := Waiter.step s.w o }

/-- A schedule. -/
def run (s : State) (ops : List Op) : State := ops.foldl step s

end Model.Conn
