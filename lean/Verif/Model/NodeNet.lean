import Verif.Model.ClassNet
import Verif.Model.NodeInterview
/-!
# A node in the network

`Node.interview` (node.py:182-191) of a node object with its command class objects in the network: every class is one of `Model/ClassNet.lean`, all of them use the same node object, gateway
and connections, and the interviews of the classes are called by `Node.interview()` one after the other as in `Model/NodeInterview.lean`, where the storage lock is.
Everything else that can happen happens in between: other calls of `Node.interview()`, interviews of single classes, other nodes, datagrams, changes of the table of nodes.
-/
namespace Model.NodeNet
open Model.App (Nd)
open Model.ClassRun (Cls)
open Model.ClassNet (Wait)
open Model.NodeInterview (Pc Ev)

/-- A command class object, and what its calls wait for. -/
structure Part (σ : Type) where
  cls : ClassRun.State σ
  waits : List (Option Wait)

/-- A node object that supports `size` command classes: their interviews, with attributes of type `σ k` for class number `k` (node.py:99-101). -/
structure Node (σ : Nat → Type) where
  nd : Nd
  size : Nat
  c : (k : Nat) → Cls (σ k)

/-- Everything. `calls` are the calls of `Node.interview()`, `trace` what they did. -/
structure State (σ : Nat → Type) where
  sys : System.State
  parts : (k : Nat) → Part (σ k)
  calls : List Pc
  trace : List Ev

variable {σ : Nat → Type}

/-- Class number `k` in the network. -/
def State.cls (s : State σ) (k : Nat) : ClassNet.State (σ k) := ⟨s.sys, (s.parts k).cls, (s.parts k).waits⟩

/-- Something has happened to class number `k` or the network. -/
def State.put (s : State σ) (k : Nat) (x : ClassNet.State (σ k)) : State σ :=
  { s with sys := x.sys, parts := fun j => if h : j = k then h ▸ ⟨x.cls, x.waits⟩ else s.parts j }

/-- Something happens to class number `k`. -/
def act (N : Node σ) (s : State σ) (k : Nat) (o : ClassNet.Op (σ k)) : State σ := s.put k (ClassNet.step N.nd (N.c k) (s.cls k) o)

/-- node.py:187-189: call `n` reaches the class number `k`, or the end of the loop. (A class interview that ends without suspending is continued by the next `resume`.) -/
def begin (N : Node σ) (s : State σ) (n k : Nat) : State σ :=
  if k < N.size then
    { act N s k .interview with calls := s.calls.set n (.running k (s.parts k).cls.dec.calls.length), trace := s.trace ++ [.began n k (s.parts k).cls.dec.calls.length] }
  else { s with calls := s.calls.set n (.done (.ok ())) }

/-- What can happen to a class. -/
inductive Own (σ : Type)
  | interview
  | requestVersion
  | proceed (i : Nat)                                     -- call `i` of the class goes on after what it awaited
  | load (version : Nat) (interviewed : Bool) (f : σ → σ) -- __setstate__
  | others (f : σ → σ)                                    -- a handler of a message

/-- The same in `Model/ClassNet.lean`. -/
def Own.op {σ : Type} : Own σ → ClassNet.Op σ
  | .interview => .interview
  | .requestVersion => .requestVersion
  | .proceed i => .proceed i
  | .load v b f => .load v b f
  | .others f => .others f

/-- What can happen. -/
inductive Op (σ : Nat → Type)
  | interview                       -- Node.interview() is called
  | resume (n : Nat)                -- call `n` continues
  | cls (k : Nat) (o : Own (σ k))   -- something happens to class number `k`
  | sys (o : System.Op)             -- anything else that can happen

/-- One operation. -/
def step (N : Node σ) (s : State σ) : Op σ → State σ
  | .interview => begin N { s with calls := s.calls ++ [.done (.ok ())] } s.calls.length 0      -- the new entry is overwritten
  | .resume n =>
    match s.calls[n]? with
    | some (.running k j) =>
      match NodeInterview.result (s.parts k).cls.dec j with
      | none => s
      | some r =>
        let s := { s with trace := s.trace ++ [.ended n k j r] }
        match r with
        | .ok _ => begin N s n (k + 1)
        | .error .timeout => begin N s n (k + 1)                                             -- node.py:190-191
        | .error e => { s with calls := s.calls.set n (.done (.error e)) }
    | _ => s
  | .cls k o => act N s k o.op
  | .sys o => { s with sys := System.step s.sys o }

/-- A schedule. -/
def run (N : Node σ) (s : State σ) (ops : List (Op σ)) : State σ := ops.foldl (step N) s

/-- A new application with a new gateway, and new command class objects with these numbers and attributes. -/
def init (own : Nat) (ids : Nat → Nat) (a : (k : Nat) → σ k) : State σ := ⟨System.init own, fun k => ⟨ClassRun.fresh (ids k) (a k), []⟩, [], []⟩

end Model.NodeNet
