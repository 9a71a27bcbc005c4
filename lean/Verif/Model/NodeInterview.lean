import Verif.Model.Interview
import Verif.Model.Node
/-!
# Interviewing a node

`Node.interview` (node.py:182-191) over the command classes of a node (`Model/Interview.lean`), with the storage lock and `commandClassUpdated` (node.py:124-131, 254-279).
Any number of interviews of the node and of single classes may overlap; as elsewhere the schedule is adversarial and an operation that is not possible does nothing.
`_supported` is only written by the constructor (node.py:101), so the dict does not change while it is iterated over.
-/
namespace Model.NodeInterview
open Model.Listen

/-- Where a call of `Node.interview()` is suspended: in call `j` of interview() of the class number `i`. -/
inductive Pc
  | running (i j : Nat)
  | done (r : Py Unit)
  deriving DecidableEq, Repr

/-- What the calls of `Node.interview()` do: call `n` begins and ends the call `j` of interview() of the class number `i`. -/
inductive Ev
  | began (n i j : Nat)
  | ended (n i j : Nat) (r : Py Ret)
  deriving DecidableEq, Repr

/-- A node. `classes` are the values of `_supported` in order, `updates` counts how often nodeUpdated was told. -/
structure State where
  classes : List Interview.State
  storage : Node.Storage
  updates : Nat
  calls : List Pc
  trace : List Ev
  deriving DecidableEq, Repr

/-- A new node that supports these command classes (node.py:74, 99-101). -/
def fresh (ids : List Nat) : State := ⟨ids.map Interview.fresh, .clean, 0, [], []⟩

/-- Something happens to the storage status. -/
def State.store (s : State) (o : Node.StorageOp) : State :=
  { s with storage := (Node.storageStep s.storage o).1, updates := s.updates + if (Node.storageStep s.storage o).2 then 1 else 0 }

/-- node.py:187-189: call `n` reaches the class number `i`, or the end of the loop. (A class interview that ends without suspending is continued by the next `resume`.) -/
def begin (s : State) (n i : Nat) : State :=
  match s.classes[i]? with
  | none => { s with calls := s.calls.set n (.done (.ok ())) }
  | some c =>
    { s with classes := s.classes.set i (Interview.step c .interview), calls := s.calls.set n (.running i c.calls.length), trace := s.trace ++ [.began n i c.calls.length] }

/-- What can happen. -/
inductive Op
  | interview                            -- Node.interview() is called
  | resume (n : Nat)                     -- call `n` continues
  | cls (i : Nat) (o : Interview.Op)     -- anything that can happen to class number `i`
  | enter                                -- `with node.storageLock():` is entered
  | leave                                -- and left
  deriving DecidableEq, Repr

/-- The result of call `j` of the class, if it has ended. -/
def result (c : Interview.State) (j : Nat) : Option (Py Ret) :=
  match c.calls[j]? with
  | none => none
  | some x =>
    match x.pc with
    | .done _ r => some r
    | _ => none

/-- One operation. -/
def step (s : State) : Op → State
  | .interview => begin { s with calls := s.calls ++ [.done (.ok ())] } s.calls.length 0      -- the new entry is overwritten
  | .resume n =>
    match s.calls[n]? with
    | some (.running i j) =>
      match s.classes[i]? with
      | none => s
      | some c =>
        match result c j with
        | none => s
        | some r =>
          let s := { s with trace := s.trace ++ [.ended n i j r] }
          match r with
          | .ok _ => begin s n (i + 1)
          | .error .timeout => begin s n (i + 1)                                             -- node.py:190-191
          | .error e => { s with calls := s.calls.set n (.done (.error e)) }
    | _ => s
  | .cls i o =>
    match s.classes[i]? with
    | none => s
    | some c =>
      let c' := Interview.step c o
      let s := { s with classes := s.classes.set i c' }
      if c.told < c'.told then s.store .update else s                                        -- CommandClass.py:86, 169; node.py:124-131
  | .enter => s.store .enter
  | .leave => s.store .leave

/-- A schedule. -/
def run (s : State) (ops : List Op) : State := ops.foldl step s

end Model.NodeInterview
