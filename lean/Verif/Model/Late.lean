import Verif.Model.Boot
/-!
# Reports whose handling starts later

`onUnsolicitedMessage` hands a node list report to `asyncio.ensure_future` (zipgateway.py:270-271): the coroutine does not begin in the same step, but in a later iteration of the event loop.
`Model/Gateway.lean` lets it begin at once. Here it waits in a queue of tasks until the schedule starts it. This is a layer on any model with such an operation: the gateway, or the application on it.
-/
namespace Model.Late
open Spec (Bytes)

variable {σ ω : Type}

/-- What is modelled below, and the reports whose task has not begun, the oldest first. -/
structure State (σ ω : Type) where
  now : σ
  queued : List ω
  deriving DecidableEq, Repr

/-- What can happen. -/
inductive Op (ω : Type)
  | happens (o : ω)   -- anything; if it is the arrival of a report, a task is made for it
  | starts (i : Nat)  -- a queued task begins
  deriving DecidableEq, Repr

/-- One operation. -/
def step (next : σ → ω → σ) (report : ω → Bool) (s : State σ ω) : Op ω → State σ ω
  | .happens o => if report o then { s with queued := s.queued ++ [o] } else { s with now := next s.now o }   -- zipgateway.py:270-271
  | .starts i =>
    match s.queued[i]? with
    | none => s
    | some o => ⟨next s.now o, s.queued.eraseIdx i⟩                                                           -- zipgateway.py:181

/-- A schedule. -/
def run (next : σ → ω → σ) (report : ω → Bool) (s : State σ ω) (ops : List (Op ω)) : State σ ω := ops.foldl (step next report) s

/-- zipgateway.py:266-270: the packet has a node list report. -/
def reportIn (pkt : Bytes) : Bool :=
  match decode pkt with
  | .error _ => false
  | .ok p => (p.command.map Msg.hid) = some 0x5202

/-- For the gateway. -/
def gwReport : Gateway.Op → Bool
  | .unsolicited pkt _ _ => reportIn pkt
  | _ => false

/-- For the application on the gateway. -/
def bootReport : Boot.Op → Bool
  | .gw o => gwReport o
  | _ => false

/-- The gateway. -/
abbrev gateway (ops : List (Op Gateway.Op)) : State Gateway.State Gateway.Op := run Gateway.step gwReport ⟨Gateway.init, []⟩ ops

/-- The application on the gateway. -/
abbrev boot (ops : List (Op Boot.Op)) : State Boot.State Boot.Op := run Boot.step bootReport ⟨Boot.init, []⟩ ops

end Model.Late
