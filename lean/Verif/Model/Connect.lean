import Verif.Model.Gateway
/-!
# `ZIPGateway.connect()`

`connect()` (zipgateway.py:90-93) and `setupUnsolicitedConnection()` (zipgateway.py:317-332) on top of `Model/Gateway.lean`: any number of overlapping calls, with
anything else the gateway can do going on meanwhile. A call is suspended while its socket is opened, in `setGatewayMode(1)`, while the listening socket is opened, in `send()` and
in the rest of `setupUnsolicitedConnection()`.

The address of the local side of the socket is recorded although the code never asks for it; it is only used to state properties.
-/
namespace Model.Connect
open Spec (Bytes)

/-- zipgateway.py:325: `ipaddress.IPv6Address("::ffff:c0a8:31")` -/
def destination : Bytes := [0, 0, 0, 0, 0, 0, 0, 0, 0, 0, 0xFF, 0xFF, 0xC0, 0xA8, 0x00, 0x31]

/-- zipgateway.py:324-327: the message. -/
def setDestination : Py Msg :=
  construct Reg.ZipGateway.UnsolicitedDestinationSet
    (Gateway.kw1 "unsolicitedIPv6Destination" (.bytes destination) <| Gateway.kw1 "port" (.num .pyint 4123) fun _ => none)

/-- Where a call of `connect()` is suspended. -/
inductive Pc
  | opening                 -- zipconnection.py:49
  | mode (j : Nat)          -- zipgateway.py:92: awaits coroutine `j` of the gateway
  | listening               -- zipgateway.py:322
  | telling (k : Nat)       -- zipgateway.py:323: awaits the send `k` of the gateway
  | nodes (j : Nat)         -- zipgateway.py:330-332: awaits coroutine `j` of the gateway
  | done (r : Py Unit)
  deriving DecidableEq, Repr

/-- The gateway, the calls of `connect()`, the local addresses of the sockets that were opened and the ports that are listened on. -/
structure State where
  gw : Gateway.State
  calls : List Pc
  locals : List Bytes
  ports : List Nat
  deriving DecidableEq, Repr

/-- zipgateway.py:26-32 -/
def init : State := ⟨Gateway.init, [], [], []⟩

/-- The result of coroutine `j`, if it has ended. -/
def jobResult (g : Gateway.State) (j : Nat) : Option (Py Gateway.Ret) :=
  match g.jobs[j]? with
  | some (.done r) => some r
  | _ => none

/-- What can happen. -/
inductive Op
  | connect                                    -- connect() is called
  | opened (i : Nat) (address : Option Bytes)  -- the socket of call `i` is ready, with this local address; or it could not be opened
  | listened (i : Nat) (ok : Bool)             -- the listening socket of call `i` is ready, or it could not be opened
  | resume (i : Nat) (order : List Nat)        -- call `i` continues
  | gw (o : Gateway.Op)                        -- anything that can happen to the gateway
  deriving DecidableEq, Repr

/-- Call `i` goes on waiting. -/
def State.goto (s : State) (i : Nat) (pc : Pc) : State := { s with calls := s.calls.set i pc }

/-- zipconnection.py:50, zipgateway.py:92: the connection is ready, and the call asks for the mode. -/
def connected (g : Gateway.State) : Gateway.State := Gateway.run g [.conn .connect, .setMode 1]

/-- The socket of call `i` is ready, or an OSError is raised. -/
def opened (s : State) (i : Nat) (address : Option Bytes) : State :=
  match s.calls[i]? with
  | some .opening =>
    match address with
    | some a => { s with gw := connected s.gw, locals := s.locals ++ [a] }.goto i (.mode s.gw.jobs.length)
    | none => s.goto i (.done (.error .runtime))
  | _ => s

/-- The listening socket of call `i` is ready, or an OSError is raised (zipgateway.py:322-328). -/
def listened (s : State) (i : Nat) (ok : Bool) (msg : Py Msg := setDestination) : State :=
  match s.calls[i]? with
  | some .listening =>
    if ok then
      match msg with
      | .error e => { s with ports := s.ports ++ [4123] }.goto i (.done (.error e))
      | .ok m => { s with ports := s.ports ++ [4123], gw := Gateway.step s.gw (.conn (.send m 0 0 3)) }.goto i (.telling s.gw.conn.sends.length)
    else s.goto i (.done (.error .runtime))
  | _ => s

/-- Call `i` continues. -/
def proceed (s : State) (i : Nat) (order : List Nat) : State :=
  match s.calls[i]? with
  | some (.mode j) =>
    match jobResult s.gw j with
    | none => s
    | some (.ok _) => s.goto i .listening                                                  -- zipgateway.py:92: the result is not looked at
    | some (.error e) => s.goto i (.done (.error e))
  | some (.telling k) =>
    match Gateway.sendResult s.gw k with
    | none => s
    | some (.ok _) =>                                                                      -- zipgateway.py:323: the result is not looked at
      { s with gw := Gateway.step s.gw (.setup order) }.goto i (.nodes s.gw.jobs.length)
    | some (.error e) => s.goto i (.done (.error e))
  | some (.nodes j) =>
    match jobResult s.gw j with
    | none => s
    | some (.ok _) => s.goto i (.done (.ok ()))
    | some (.error e) => s.goto i (.done (.error e))
  | _ => s

/-- One operation. -/
def step (s : State) : Op → State
  | .connect => { s with calls := s.calls ++ [.opening] }
  | .opened i a => opened s i a
  | .listened i ok => listened s i ok
  | .resume i order => proceed s i order
  | .gw o => { s with gw := Gateway.step s.gw o }

/-- A schedule. -/
def run (s : State) (ops : List Op) : State := ops.foldl step s

end Model.Connect
