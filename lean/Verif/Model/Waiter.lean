import Verif.Model.Msg
/-!
# Waiting for messages

`MessageWaiter` (util.py:165-203), `Adapter.sendAndReceive` (adapter.py:209-215) and `Node.sendAndReceive` (node.py:243-252) under asyncio.

Coroutines run without interruption between two `await`s. What happens at an `await` is decided by a schedule: a list of operations, each of
which is one such atomic section (or the expiry of a timer, or the passing of time). An operation that is not possible in the current state
does nothing. `asyncio` runs ready callbacks in FIFO order; the schedules here also contain all other orders.

`asyncio.wait_for(future, timeout)` is modelled after Python 3.7 and 3.8: the caller sleeps until the future is done or the timer expires
(`timedOut`); when it runs again it takes the result if the future is done by then, otherwise it cancels the future, sleeps again until the
cancellation has been processed (`cancelling`) and raises TimeoutError.
-/
namespace Model.Waiter

/-- An `asyncio.Future`. -/
inductive Fut
  | pending
  | result (m : Msg)
  | cancelled
  deriving DecidableEq, Repr

/-- How a caller ended: with a message or with an exception. -/
abbrev Res := Py Msg

/-- Where a caller is suspended. -/
inductive Pc
  | sending        -- `await self.send(...)` in sendAndReceive
  | waiting        -- in wait_for, not released by the timer
  | timedOut       -- in wait_for, released by the timer, has not run yet
  | cancelling     -- in wait_for, waiting for the cancellation
  | done (r : Res)
  deriving DecidableEq, Repr

/-- The three ways to wait. -/
inductive Kind
  | plain      -- waitForMessage(msgType, timeout)
  | adapter    -- Adapter.sendAndReceive
  | node       -- Node.sendAndReceive
  deriving DecidableEq, Repr

/-- A call waiting for a message with id `hid`. `fut` is the local variable `session` of waitForMessage. -/
structure Task where
  kind : Kind
  hid : Nat
  timeout : Nat
  fut : Option Nat
  deadline : Nat
  pc : Pc
  deriving DecidableEq, Repr

/-- `_sessions` and the objects it refers to. -/
structure State where
  sessions : Dict Nat Nat
  futs : List Fut
  tasks : List Task
  now : Nat
  deriving DecidableEq, Repr

/-- util.py:168-170 -/
def init : State := ⟨[], [], [], 0⟩

/-- util.py:172-182 -/
def addWaitingSession (s : State) (hid : Nat) : State × Nat :=
  match s.sessions.get? hid with
  | some f => (s, f)
  | none => ({ s with sessions := s.sessions.set hid s.futs.length, futs := s.futs ++ [.pending] }, s.futs.length)

/-- util.py:184-190. `set_result` on a future that is done already raises InvalidStateError. -/
def messageReceived (s : State) (m : Msg) : State × Py Bool :=
  match s.sessions.get? m.hid with
  | none => (s, .ok false)
  | some f =>
    match s.futs[f]? with
    | some .pending => ({ s with sessions := s.sessions.erase m.hid, futs := s.futs.set f (.result m) }, .ok true)
    | _ => ({ s with sessions := s.sessions.erase m.hid }, .error .invalidState)

/-- Operations of a schedule. `t` is the index of a call. -/
inductive Op
  | call (k : Kind) (hid timeout : Nat)
  | sendDone (t : Nat) (ok : Bool)      -- `self.send` returned
  | sendRaise (t : Nat) (e : PyErr)     -- `self.send` raised
  | message (m : Msg)
  | tick
  | timer (t : Nat)
  | resume (t : Nat)
  | cancelDone (t : Nat)
  | kill (t : Nat)                      -- the task of the call is cancelled from outside
  deriving DecidableEq, Repr

/-- The end of waitForMessage (util.py:200-203): the `finally` clause removes whatever session is registered for the type. -/
def finish (s : State) (i : Nat) (t : Task) (r : Res) : State :=
  { s with sessions := s.sessions.erase t.hid, tasks := s.tasks.set i { t with pc := .done r } }

/-- One operation. -/
def step (s : State) : Op → State
  | .call k hid timeout =>
    let (s, f) := addWaitingSession s hid
    let t : Task := match k with
      | .plain => ⟨k, hid, timeout, some f, s.now + timeout, .waiting⟩       -- util.py:194-197
      | .adapter => ⟨k, hid, timeout, some f, 0, .sending⟩                   -- adapter.py:213-214
      | .node => ⟨k, hid, timeout, none, 0, .sending⟩                        -- node.py:247-248
    { s with tasks := s.tasks ++ [t] }
  | .sendDone i ok =>
    match s.tasks[i]? with
    | none => s
    | some t =>
      if t.pc ≠ .sending then s
      else match t.kind, t.fut with
        | .node, _ =>
          if ok then
            -- node.py:252, util.py:194-197
            let (s, f) := addWaitingSession s t.hid
            { s with tasks := s.tasks.set i { t with fut := some f, deadline := s.now + t.timeout, pc := .waiting } }
          else
            -- node.py:249-251
            { s with tasks := s.tasks.set i { t with pc := .done (.error .timeout) } }
        | _, some _ => { s with tasks := s.tasks.set i { t with deadline := s.now + t.timeout, pc := .waiting } }   -- adapter.py:215
        | _, none => s     -- not reachable
  | .sendRaise i e =>
    match s.tasks[i]? with
    | none => s
    | some t => if t.pc ≠ .sending then s else { s with tasks := s.tasks.set i { t with pc := .done (.error e) } }
  | .message m => (messageReceived s m).1
  | .tick => { s with now := s.now + 1 }
  | .timer i =>
    match s.tasks[i]? with
    | none => s
    | some t => if t.pc = .waiting ∧ t.deadline ≤ s.now then { s with tasks := s.tasks.set i { t with pc := .timedOut } } else s
  | .resume i =>
    match s.tasks[i]? with
    | none => s
    | some t =>
      if t.pc = .waiting ∨ t.pc = .timedOut then
        match t.fut with
        | none => s        -- not reachable
        | some f =>
          match s.futs[f]? with
          | some (.result m) => finish s i t (.ok m)
          | some .cancelled => finish s i t (.error .cancelled)
          | _ =>
            if t.pc = .timedOut then
              { s with futs := s.futs.set f .cancelled, tasks := s.tasks.set i { t with pc := .cancelling } }
            else s         -- still asleep
      else s
  | .cancelDone i =>
    match s.tasks[i]? with
    | none => s
    | some t => if t.pc = .cancelling then finish s i t (.error .timeout) else s
  | .kill i =>
    match s.tasks[i]? with
    | none => s
    | some t =>
      match t.pc with
      | .done _ => s
      | .sending => { s with tasks := s.tasks.set i { t with pc := .done (.error .cancelled) } }
      | _ =>
        -- wait_for cancels the future if it is not done
        match t.fut with
        | none => s        -- not reachable
        | some f =>
          match s.futs[f]? with
          | some .pending => finish { s with futs := s.futs.set f .cancelled } i t (.error .cancelled)
          | _ => finish s i t (.error .cancelled)

/-- A schedule. -/
def run (s : State) (ops : List Op) : State := ops.foldl step s

end Model.Waiter
