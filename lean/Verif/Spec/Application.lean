import Verif.Model.Application
/-!
# Which nodes an application should have, and what its listeners should be told

Used to state C53, C54, C57, C94 and C95.
-/
namespace Spec.App
open Model Model.App

/-- The network as the adapter reports it: the list of nodes, the information about every node, the number of end points of every multi channel node
and the information about every end point. -/
structure Net where
  list : List Nat
  info : Nat → Info
  eps : Nat → Nat
  cap : Nat → Nat → Info

/-- An answer of the adapter describes the network. -/
def Truthful (net : Net) : Ev → Prop
  | .gotList _ l => l = net.list
  | .gotInfo _ n x => x = net.info n
  | .gotEps _ n c => c = net.eps n
  | .gotCap _ n ep x => x = net.cap n ep
  | _ => True

/-- The adapter's answers among the events describe the network. -/
def Reports (net : Net) (evs : List Ev) : Prop := ∀ e ∈ evs, Truthful net e

/-- The answer is an exception. -/
def _root_.Model.App.Ans.raises : Ans → Bool
  | .list (.error _) | .info (.error _) | .eps (.error _) | .cap (.error _) | .failed (.error _) | .asked (.error _) => true
  | _ => false

/-- A node object can be made from the command classes reported (see C48). -/
def Accepted (x : Info) : Prop := ∃ n, Node.classes x.classes = .ok n

/-- A node with its end points: node id, end point (0 for the node itself) and information. -/
def nodeAndEndPoints (net : Net) (n : Nat) : List (Nat × Nat × Info) :=
  (n, 0, net.info n) :: if multiChannel (net.info n) then (List.range (net.eps n)).map fun e => (n, e + 1, net.cap n (e + 1)) else []

/-- The nodes of the list that are not the controller itself and not known yet, with their end points. -/
def newNodes (own : Nat) (net : Net) (known : Nat → Bool) (l : List Nat) : List (Nat × Nat × Info) :=
  l.flatMap fun n => if n = own ∨ known n then [] else nodeAndEndPoints net n

/-- What describes a node object. -/
def descr (nd : Nd) : Nat × Nat × Info := (nd.root, nd.ep, nd.info)

/-- What the listeners were told. -/
def told (evs : List Ev) : List Ev := evs.filter fun e => match e with
  | .removed _ _ => true
  | .removedAll _ _ => true
  | .addedAll _ _ => true
  | .added _ _ => true
  | _ => false

/-- The events since state `s0`. -/
def since (s0 s : State) : List Ev := s.trace.drop s0.trace.length

/-- The table is in order: every node is entered once and under its own id, and every end point belongs to a node of the table. -/
structure Orderly (t : Dict Str Nd) : Prop where
  nodup : (Dict.keys t).Nodup
  ids : ∀ k nd, (k, nd) ∈ t → k = nd.id
  roots : ∀ k nd, (k, nd) ∈ t → key nd.root 0 ∈ Dict.keys t

/-- The node is not the controller itself, and what is known about it has been reported. -/
def Reported (s : State) (nd : Nd) : Prop :=
  nd.root ≠ s.own ∧ if nd.ep = 0 then ∃ j, Ev.gotInfo j nd.root nd.info ∈ s.trace else ∃ j, Ev.gotCap j nd.root nd.ep nd.info ∈ s.trace

/-- Histories of updates and startups that do not overlap and end normally; startup only when there are no nodes. -/
inductive History (own : Nat) : State → Prop
  | fresh : History own (fresh own)
  | next {s0 s : State} (k : Kind) (net : Net) (answers : List Ans) : History own s0 → (k = .startup → s0.nodes = []) → net.list.Nodup →
      s = run s0 (.start k :: answers.map (.answer s0.calls.length)) →
      Reports net (since s0 s) → s.calls[s0.calls.length]? = some (.done (.ok ())) → History own s

end Spec.App
