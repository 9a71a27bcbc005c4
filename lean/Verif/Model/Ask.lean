import Verif.Model.Listen
/-!
# Listeners that await and listeners that come while listeners are told

`Listenable` (util.py:123-162) without the simplifications of `Model/Listen.lean`: a coroutine of a listener is a task that may be suspended for as long as it likes, any number of
calls of `ask` go on at the same time (a listener may ask its speaker again while it is told), and listeners are registered at any time, also while the others are told.
As elsewhere the schedule is adversarial and an operation that is not possible does nothing. `asyncio` is trusted: a task does not begin before `speak` has returned, and `gather`
has an exception as soon as the first of the futures has one and otherwise the list of the results, in the order of the futures, when all of them have one; it leaves the others alone.
Not modelled: cancelling a call of `ask`.
-/
namespace Model.Ask
open Model.Listen

/-- What `getattr(listener, message, None)` is for a listener, and for a function also what calling it gives. -/
inductive Kind
  | missing
  | sync (r : Py Ret)
  | async
  deriving DecidableEq, Repr

/-- A future that `speak` returns, with the number of the listener: one that has a result, and a task, with its result when it has ended. -/
inductive Fut
  | ready (i : Nat) (v : Ret)
  | task (i : Nat) (r : Option (Py Ret))
  deriving DecidableEq, Repr

/-- Where a call of `ask` is: in the loop of `speak`, in `gather`, or at its end. -/
inductive Phase
  | speaking (next : Nat)
  | waiting
  | done (r : Py (List Ret))
  deriving DecidableEq, Repr

/-- A call of `ask`. -/
structure Call where
  phase : Phase
  futs : List Fut
  deriving DecidableEq, Repr

/-- What happens: call `n` comes to the listener `l`, number `i`, and the task of the listener number `i` for call `n` ends. -/
inductive Ev
  | told (n i l : Nat) (k : Kind)
  | ended (n i : Nat) (r : Py Ret)
  deriving DecidableEq, Repr

/-- A speaker. -/
structure State where
  listeners : List Nat
  calls : List Call
  trace : List Ev
  deriving DecidableEq, Repr

/-- util.py:126-128 -/
def fresh : State := ⟨[], [], []⟩

/-- The results of the futures, if all of them have one. -/
def values : List Fut → Option (List Ret)
  | [] => some []
  | .ready _ v :: fs => (values fs).map (v :: ·)
  | .task _ (some (.ok v)) :: fs => (values fs).map (v :: ·)
  | .task _ _ :: _ => none

/-- `gather` has its result when all futures have one. -/
def settle (futs : List Fut) : Phase :=
  match values futs with
  | some rs => .done (.ok rs)
  | none => .waiting

/-- util.py:149-161: what a listener adds to the futures. -/
def newFut (i : Nat) : Kind → List Fut
  | .missing => []
  | .async => [.task i none]
  | .sync (.ok v) => [.ready i v]
  | .sync (.error _) => []

/-- What can happen. -/
inductive Op
  | add (l : Nat)                       -- addListener(l)
  | ask                                 -- a call of ask()
  | next (n : Nat) (k : Kind)           -- the loop of speak() of call `n` goes on
  | ends (n i : Nat) (r : Py Ret)       -- the task of the listener number `i` for call `n` ends
  deriving DecidableEq, Repr

/-- One operation. -/
def step (s : State) : Op → State
  | .add l => { s with listeners := s.listeners ++ [l] }                                           -- util.py:130-132
  | .ask => { s with calls := s.calls ++ [⟨.speaking 0, []⟩] }
  | .next n k =>
    match s.calls[n]? with
    | none => s
    | some c =>
      match c.phase with
      | .speaking i =>
        match s.listeners[i]? with                                                                 -- util.py:148: the list is looked at again for every listener
        | some l => { s with calls := s.calls.set n ⟨.speaking (i + 1), c.futs ++ newFut i k⟩, trace := s.trace ++ [.told n i l k] }
        | none => { s with calls := s.calls.set n ⟨settle c.futs, c.futs⟩ }                        -- util.py:139
      | _ => s
  | .ends n i r =>
    match s.calls[n]? with
    | none => s
    | some c =>
      match c.phase with
      | .speaking _ => s
      | ph =>
        if .task i none ∈ c.futs then
          let futs := c.futs.map fun f => if f = .task i none then .task i (some r) else f
          let ph' := match ph, r with
            | .waiting, .ok _ => settle futs
            | .waiting, .error e => .done (.error e)
            | ph, _ => ph                                                                          -- an exception has already been reported
          { s with calls := s.calls.set n ⟨ph', futs⟩, trace := s.trace ++ [.ended n i r] }
        else s

/-- A schedule. -/
def run (s : State) (ops : List Op) : State := ops.foldl step s

end Model.Ask
