import Verif.Model.Py
/-!
# DTLS connections

`DTLSConnection` (dtlsconnection.py): a thread that reads from a socket, and the event loop in which its callbacks run. The steps of the thread and of the loop interleave in any
order. Not modelled: OpenSSL (that the handshake succeeds or fails is an event), and `clientCb`, which has no effect (its first argument is a pointer, so `_ssl.sslwrap` raises, and
ctypes drops exceptions of callbacks).
-/
namespace Model.Dtls
open Spec (Bytes)

/-- Where the thread is: not started; in `createDtlsPskSock`; the socket is stored; the loop was told; about to test `_running`; in `recvfrom` (`true`) or `recv`; at its end. -/
inductive Pc
  | idle | creating | made | told | top | reading (server : Bool) | ended
  deriving DecidableEq, Repr

/-- What the thread asked the loop to call: `_connectionEvent.set`, or a callback with data and, from `recvfrom`, the sender. -/
inductive Item (A : Type)
  | setEvent
  | deliver (cb : Nat) (data : Bytes) (sender : Option A)

/-- A call of `connect`: `wait()` is not yet started; it waits; the event has released it; it has returned; it has raised TimeoutError; it has raised RuntimeError. -/
inductive Call
  | started | waiting | released | returned | timedOut | raised
  deriving DecidableEq, Repr

/-- A `DTLSConnection`. `sent`: the datagrams given to the socket. `handed`: the calls of callbacks. -/
structure State (A : Type) where
  pc : Pc := .idle
  running : Bool := false               -- `_running`
  sock : Bool := false                  -- `_sock` is set
  server : Bool := false                -- `_server`
  callback : Option Nat := none         -- `_onMessage`
  event : Bool := false                 -- `_connectionEvent`
  queue : List (Item A) := []           -- `_loop.call_soon_threadsafe`
  handed : List (Nat × Bytes × Option A) := []
  calls : List Call := []
  sent : List Bytes := []

/-- dtlsconnection.py:39-49 -/
def init {A : Type} : State A := {}

/-- What can happen. `created`, `createFailed`: `createDtlsPskSock` returns or raises. `thread`: the thread takes its next step. `packet`, `readAttributeError`, `readError`: `recv`
or `recvfrom` gives a datagram or raises. `loop`: the event loop calls what was asked for first. `turn`, `timer`: the call of `connect` goes on; its 10 seconds are over. -/
inductive Op (A : Type)
  | connect | listen
  | created | createFailed | thread
  | packet (data : Bytes) (sender : A)
  | readAttributeError | readError
  | loop
  | turn (i : Nat) | timer (i : Nat)
  | send (data : Bytes)
  | onMessage (cb : Nat)
  | stop

variable {A : Type}

/-- `threading.Thread.start`: a thread can be started once, then `start` raises RuntimeError. -/
def start (s : State A) : Py (State A) := if s.pc = .idle then .ok { s with pc := .creating } else .error .runtime

/-- Release those that wait for the event: `asyncio.Event.set`. -/
def release : Call → Call
  | .waiting => .released
  | c => c

/-- One event. Events that cannot happen in the state have no effect. Simplifications: the callback is read once by the thread (lines 77-78 and 81-82 read it twice; it is never
unset), and `_running` and `_server` are read at the same time. -/
def step (s : State A) : Op A → State A
  | .connect =>                                                              -- dtlsconnection.py:55-61
    let s := { s with event := false }
    match start s with
    | .ok s => { s with calls := s.calls ++ [.started] }
    | .error _ => { s with calls := s.calls ++ [.raised] }
  | .listen =>                                                               -- dtlsconnection.py:63-67
    let s := { s with server := true }
    match start s with
    | .ok s => s
    | .error _ => s
  | .created => if s.pc = .creating then { s with pc := .made, sock := true } else s            -- dtlsconnection.py:70
  | .createFailed => if s.pc = .creating then { s with pc := .ended } else s
  | .thread =>
    match s.pc with
    | .made => { s with pc := .told, queue := s.queue ++ [.setEvent] }       -- dtlsconnection.py:71
    | .told => { s with pc := .top, running := true }                        -- dtlsconnection.py:72
    | .top => if s.running then { s with pc := .reading s.server } else { s with pc := .ended } -- dtlsconnection.py:73, 75
    | _ => s
  | .packet data sender =>                                                   -- dtlsconnection.py:76-82
    match s.pc with
    | .reading server =>
      match s.callback with
      | some cb => { s with pc := .top, queue := s.queue ++ [.deliver cb data (if server then some sender else none)] }
      | none => { s with pc := .top }
    | _ => s
  | .readAttributeError =>                                                   -- dtlsconnection.py:83-84
    match s.pc with
    | .reading _ => { s with pc := .top }
    | _ => s
  | .readError =>                                                            -- dtlsconnection.py:85-90
    match s.pc with
    | .reading _ => { s with pc := .ended }
    | _ => s
  | .loop =>
    match s.queue with
    | [] => s
    | .setEvent :: q => { s with queue := q, event := true, calls := s.calls.map release }
    | .deliver cb data sender :: q => { s with queue := q, handed := s.handed ++ [(cb, data, sender)] }
  | .turn i =>                                                               -- dtlsconnection.py:61
    match s.calls[i]? with
    | some .started => { s with calls := s.calls.set i (if s.event then .returned else .waiting) }
    | some .released => { s with calls := s.calls.set i .returned }
    | _ => s
  | .timer i =>
    match s.calls[i]? with
    | some .started | some .waiting | some .released => { s with calls := s.calls.set i .timedOut }
    | _ => s
  | .send data => if s.sock then { s with sent := s.sent ++ [data] } else s  -- dtlsconnection.py:92-97
  | .onMessage cb => { s with callback := some cb }                          -- dtlsconnection.py:99-101
  | .stop => { s with running := false }                                     -- dtlsconnection.py:103-105

/-- A history. -/
def run (s : State A) (ops : List (Op A)) : State A := ops.foldl step s

/-! ## Keys -/

/-- Memory. -/
abbrev Mem := Nat → UInt8

/-- `ctypes.memmove(dst, data, len(data))` for data that is apart from the destination. -/
def memmove (m : Mem) (dst : Nat) (data : Bytes) : Mem := fun a => if dst ≤ a ∧ a < dst + data.length then data.getD (a - dst) 0 else m a

/-- `"Client_identity".encode("utf-8")` -/
def clientIdentity : Bytes := [67, 108, 105, 101, 110, 116, 95, 105, 100, 101, 110, 116, 105, 116, 121]

/-- dtlsconnection.py:107-113: the memory afterwards and the value returned. -/
def clientPskCb (psk : Bytes) (m : Mem) (identity _maxIdentityLen cpsk _maxPskLen : Nat) : Mem × Nat :=
  let m := memmove m cpsk psk
  let m := memmove m identity clientIdentity
  (m, psk.length)

/-- dtlsconnection.py:115-119 -/
def serverPskCb (psk : Bytes) (m : Mem) (cpsk _maxPskLen : Nat) : Mem × Nat := (memmove m cpsk psk, psk.length)

end Model.Dtls
