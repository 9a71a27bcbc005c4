import Verif.Model.Py
/-!
# Sockets

`Connection` and `ZipClientProtocol` (connection.py) on top of asyncio's datagram transports (`_SelectorDatagramTransport` of Python 3.7 and 3.8).
-/
namespace Model.Socket
open Spec (Bytes)

/-- Where a transport is in its life: `create_datagram_endpoint` is running; it can send and receive; `close()` was called and `connection_lost` is scheduled; `connection_lost`
was called; it could not be created. -/
inductive Phase
  | opening | live | closing | lost | failed
  deriving DecidableEq, Repr

/-- One transport, created by a call of `connect` (`client`) or `listen`. `returned`: the call has gone on after its `await`. `watched`: the task `run` waits for the loss of this
transport. -/
structure Sock where
  client : Bool
  phase : Phase := .opening
  returned : Bool := false
  watched : Bool := false
  deriving DecidableEq, Repr

/-- A `Connection` and what went through it. `A` are addresses. `handed`: the calls of callbacks, with callback, data and sender if it was given. `wire`: the datagrams given to the
operating system, with transport, data and destination if one was given. `answers`: what the calls of `send`, `sendTo` and `stop` gave. -/
structure State (A : Type) where
  socks : List Sock := []
  sock : Option Nat := none             -- `_sock`
  server : Bool := false                -- `_server`
  callback : Option Nat := none         -- `_onMessage`
  handed : List (Nat × Bytes × Option A) := []
  wire : List (Nat × Bytes × Option A) := []
  answers : List (Py (Option Bool)) := []

/-- connection.py:38-45 -/
def init {A : Type} : State A := {}

/-- What can happen. `opened`, `openFailed`: the transport exists or could not be created; `proceed`: the call of `connect` or `listen` goes on after that. `broken`: a fatal error of
the socket. `closed`: asyncio calls `connection_lost`. `watch`: the task `run` goes on. -/
inductive Op (A : Type)
  | connect | listen
  | opened (i : Nat) | openFailed (i : Nat) | proceed (i : Nat)
  | datagram (i : Nat) (data : Bytes) (sender : A)
  | error (i : Nat)
  | broken (i : Nat) | closed (i : Nat) | watch (i : Nat)
  | send (data : Bytes) | sendTo (data : Bytes) (dest : A)
  | onMessage (cb : Nat)
  | stop

variable {A : Type}

/-- Change transport `i`. -/
def change (s : State A) (i : Nat) (f : Sock → Sock) : State A := { s with socks := s.socks.modify i f }

/-- `transport.close()`: receiving ends at once, `connection_lost` is scheduled; has no effect on a transport that is closed. -/
def Sock.close (x : Sock) : Sock := if x.phase = .live then { x with phase := .closing } else x

/-- connection.py:98-104 -/
def msgReceived (s : State A) (msg : Bytes) (sender : A) : State A :=
  match s.callback with
  | none => s
  | some cb => if s.server then { s with handed := s.handed ++ [(cb, msg, some sender)] } else { s with handed := s.handed ++ [(cb, msg, none)] }

/-- `transport.sendto()`: empty datagrams are not sent, and a transport that was closed drops what it is given. Simplifications: the operating system takes every datagram, a
listening transport that was closed drops datagrams as well (it raises `AttributeError` after `connection_lost`), and `send` on a listening connection, which has no destination, counts
as sent. -/
def sendto (s : State A) (i : Nat) (data : Bytes) (dest : Option A) : State A :=
  match s.socks[i]? with
  | some x => if x.phase = .live ∧ data ≠ [] then { s with wire := s.wire ++ [(i, data, dest)] } else s
  | none => s

/-- One event. Events that cannot happen in the state have no effect. -/
def step (s : State A) : Op A → State A
  | .connect => { s with socks := s.socks ++ [{ client := true }] }                        -- connection.py:47-58
  | .listen => { s with server := true, socks := s.socks ++ [{ client := false }] }        -- connection.py:60-69
  | .opened i =>
    match s.socks[i]? with
    | some x => if x.phase = .opening then change s i ({ · with phase := .live }) else s
    | none => s
  | .openFailed i =>
    match s.socks[i]? with
    | some x => if x.phase = .opening then change s i ({ · with phase := .failed }) else s
    | none => s
  | .proceed i =>                                                                          -- connection.py:54-58, 66-69
    match s.socks[i]? with
    | some x =>
      if x.returned = false ∧ x.phase ≠ .opening then
        if x.phase = .failed then change s i ({ · with returned := true })
        else change { s with sock := some i } i ({ · with returned := true, watched := x.client })
      else s
    | none => s
  | .datagram i data sender =>                                                             -- connection.py:21-23
    match s.socks[i]? with
    | some x => if x.phase = .live then msgReceived s data sender else s
    | none => s
  | .error _ => s                                                                          -- connection.py:25-27
  | .broken i =>
    match s.socks[i]? with
    | some _ => change s i Sock.close
    | none => s
  | .closed i =>                                                                           -- connection.py:29-32
    match s.socks[i]? with
    | some x => if x.phase = .closing then change s i ({ · with phase := .lost }) else s
    | none => s
  | .watch i =>                                                                            -- connection.py:71-75
    match s.socks[i]? with
    | some x =>
      if x.watched = true ∧ x.phase = .lost then
        let s := change s i ({ · with watched := false })
        match s.sock with
        | some j => change s j Sock.close
        | none => s
      else s
    | none => s
  | .send data =>                                                                          -- connection.py:77-83
    match s.sock with
    | none => { s with answers := s.answers ++ [.ok (some false)] }
    | some i => { sendto s i data none with answers := s.answers ++ [.ok (some true)] }
  | .sendTo data dest =>                                                                   -- connection.py:85-87
    match s.sock with
    | none => { s with answers := s.answers ++ [.error .attribute] }
    | some i => { sendto s i data (some dest) with answers := s.answers ++ [.ok none] }
  | .onMessage cb => { s with callback := some cb }                                        -- connection.py:89-91
  | .stop =>                                                                               -- connection.py:93-96
    match s.sock with
    | none => { s with answers := s.answers ++ [.error .attribute] }
    | some i => { change s i Sock.close with answers := s.answers ++ [.ok none] }

/-- A history. -/
def run (s : State A) (ops : List (Op A)) : State A := ops.foldl step s

end Model.Socket
