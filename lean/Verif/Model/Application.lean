import Verif.Model.Classes
import Verif.Model.Text
/-!
# The application

`application.py`. `nodeListUpdated()` and `startup()` as a transition system: a call runs until it awaits an answer of the adapter or of its listeners; any answer or exception
can come, and other calls can run in between. `messageReceived()` and `onMessageReceived()` as functions.

Simplifications: logging is left out; what listeners do is not modelled (only that asking them may raise), and neither are the listeners of the node objects.
-/
namespace Model.App
open Model.Classes (numAttr)
open Model.Listen (Ret)

/-! ## Nodes -/

/-- node.py:216-219: `"{}:{}".format(nodeId, endpoint)` -/
def key (root ep : Nat) : Str := natStr root ++ ':' :: natStr ep

/-- What is taken over from a NodeInfoCachedReport or a capability report (application.py:38-42, 53-62). -/
structure Info where
  classes : List Nat
  basic : Nat
  generic : Nat
  specific : Nat
  listening : Bool
  deriving DecidableEq, Repr

/-- A `Node` (end point 0) or `NodeEndPoint`; `obj` tells objects apart. -/
structure Nd where
  obj : Nat
  root : Nat
  ep : Nat
  info : Info
  deriving DecidableEq, Repr

/-- `node.nodeId` -/
def Nd.id (n : Nd) : Str := key n.root n.ep

/-- `node.supports(COMMAND_CLASS_MULTI_CHANNEL_V2)`, node.py:295-297 -/
def multiChannel (i : Info) : Bool :=
  match Node.classes i.classes with
  | .ok n => n.supported.mem 0x60
  | .error _ => false

/-! ## Node list updates and startup -/

/-- Which function is running. -/
inductive Kind
  | update
  | startup
  deriving DecidableEq, Repr

/-- What a call is waiting for. `rest` are the nodes of the list still to be looked at, `new` the nodes loaded so far. -/
inductive Pc
  | list (k : Kind)                                                    -- application.py:100, 170
  | removing (todo : List Str) (all : List Str) (list : List Nat)      -- 108: `nodeRemoved`
  | removedAll (list : List Nat)                                       -- 111: `nodesRemoved`
  | info (k : Kind) (n : Nat) (rest : List Nat) (new : List Nd)        -- 52
  | eps (k : Kind) (nd : Nd) (rest : List Nat) (new : List Nd)         -- 65
  | cap (k : Kind) (nd : Nd) (ep count : Nat) (rest : List Nat) (new : List Nd)   -- 38; `count` end points follow
  | failed                                                             -- 173
  | addedAll (k : Kind) (new : List Nd)                                -- 121, 176
  | adding (k : Kind) (todo : List Nd) (size : Nat)                    -- 123, 178
  | done (r : Py Unit)
  deriving DecidableEq, Repr

/-- Answers to what a call is waiting for. -/
inductive Ans
  | list (r : Py (List Nat))
  | info (r : Py Info)
  | eps (r : Py Nat)
  | cap (r : Py Info)
  | failed (r : Py Unit)
  | asked (r : Py Unit)
  deriving DecidableEq, Repr

/-- What can be observed: what the adapter answered call `i`, and what the listeners were told. -/
inductive Ev
  | gotList (i : Nat) (l : List Nat)
  | gotInfo (i : Nat) (n : Nat) (x : Info)
  | gotEps (i : Nat) (n : Nat) (count : Nat)
  | gotCap (i : Nat) (n ep : Nat) (x : Info)
  | removed (i : Nat) (k : Str)
  | removedAll (i : Nat) (ks : List Str)
  | addedAll (i : Nat) (nds : List Nd)
  | added (i : Nat) (nd : Nd)
  deriving DecidableEq, Repr

/-- application.py:26-34. `own` is `adapter.nodeId`; `objs` counts the objects created. -/
structure State where
  own : Nat
  nodes : Dict Str Nd
  objs : Nat
  calls : List Pc
  trace : List Ev
  deriving DecidableEq, Repr

/-- A new application. -/
def fresh (own : Nat) : State := ⟨own, [], 0, [], []⟩

/-- Call `i` goes on waiting. -/
def State.goto (s : State) (i : Nat) (pc : Pc) : State := { s with calls := s.calls.set i pc }

/-- Something is observed. -/
def State.see (s : State) (e : Ev) : State := { s with trace := s.trace ++ [e] }

/-- The loop `for node in newNodes: await self.ask("nodeAdded", node)` (application.py:122-123), and application.py:177-178: there the table itself is iterated, and
the iteration raises RuntimeError if the number of nodes has changed. Simplification: changes that leave the number as it is do not affect the iteration. -/
def announce (s : State) (i : Nat) (k : Kind) (size : Nat) : List Nd → State
  | [] => if k = .startup ∧ s.nodes.length ≠ size then s.goto i (.done (.error .runtime)) else s.goto i (.done (.ok ()))
  | nd :: todo =>
    if k = .startup ∧ s.nodes.length ≠ size then s.goto i (.done (.error .runtime)) else (s.see (.added i nd)).goto i (.adding k todo size)

/-- The loops over the node list (application.py:115-118, 170-171) from `rest` on, and what follows them. -/
def load (s : State) (i : Nat) (k : Kind) (new : List Nd) : List Nat → State
  | [] =>
    match k with
    | .update => if new = [] then s.goto i (.done (.ok ())) else (s.see (.addedAll i new)).goto i (.addedAll .update new)
    | .startup => s.goto i .failed
  | n :: rest =>
    if k = .update ∧ s.nodes.mem (key n 0) then load s i k new rest                    -- 116-117
    else if n = s.own then load s i k new rest                                         -- 48-50
    else s.goto i (.info k n rest new)

/-- The removal loop (application.py:106-111) from `todo` on. A node that is not there any more raises KeyError. -/
def remove (s : State) (i : Nat) (all : List Str) (list : List Nat) : List Str → State
  | [] =>
    if all = [] then load s i .update [] list
    else (s.see (.removedAll i all)).goto i (.removedAll list)
  | k :: todo =>
    if s.nodes.mem k then ({ s with nodes := s.nodes.erase k }.see (.removed i k)).goto i (.removing todo all list)
    else s.goto i (.done (.error .key))

/-- An answer of the adapter or the listeners arrives at call `i`. -/
def answer (s : State) (i : Nat) (a : Ans) : State :=
  match s.calls[i]?, a with
  | some (.list _), .list (.error e) => s.goto i (.done (.error e))
  | some (.list .update), .list (.ok l) =>
    let all := Dict.keys (s.nodes.filter fun p => p.2.root ∉ l)                              -- 101-105
    remove (s.see (.gotList i l)) i all l all
  | some (.list .startup), .list (.ok l) => load (s.see (.gotList i l)) i .startup [] l
  | some (.removing _ _ _), .asked (.error e) => s.goto i (.done (.error e))
  | some (.removing todo all list), .asked (.ok _) => remove s i all list todo
  | some (.removedAll _), .asked (.error e) => s.goto i (.done (.error e))
  | some (.removedAll list), .asked (.ok _) => load s i .update [] list
  | some (.info _ _ _ _), .info (.error e) => s.goto i (.done (.error e))
  | some (.info k n rest new), .info (.ok x) =>
    let s := s.see (.gotInfo i n x)
    match Node.classes x.classes with
    | .error e => s.goto i (.done (.error e))                                           -- 53: Node() raises
    | .ok _ =>
      let nd : Nd := ⟨s.objs, n, 0, x⟩
      let s := { s with objs := s.objs + 1, nodes := s.nodes.set nd.id nd }
      if multiChannel x then s.goto i (.eps k nd rest (new ++ [nd])) else load s i k (new ++ [nd]) rest
  | some (.eps _ _ _ _), .eps (.error e) => s.goto i (.done (.error e))
  | some (.eps k nd rest new), .eps (.ok count) =>
    let s := s.see (.gotEps i nd.root count)
    match count with
    | 0 => load s i k new rest
    | c + 1 => s.goto i (.cap k nd 1 c rest new)
  | some (.cap _ _ _ _ _ _), .cap (.error e) => s.goto i (.done (.error e))
  | some (.cap k nd ep count rest new), .cap (.ok x) =>
    let s := s.see (.gotCap i nd.root ep x)
    match Node.classes x.classes with
    | .error e => s.goto i (.done (.error e))                                           -- 39: NodeEndPoint() raises
    | .ok _ =>
      let ne : Nd := ⟨s.objs, nd.root, ep, x⟩
      let s := { s with objs := s.objs + 1, nodes := s.nodes.set ne.id ne }
      match count with
      | 0 => load s i k (new ++ [ne]) rest
      | c + 1 => s.goto i (.cap k nd (ep + 1) c rest (new ++ [ne]))
  | some .failed, .failed (.error e) => s.goto i (.done (.error e))
  | some .failed, .failed (.ok _) => (s.see (.addedAll i (s.nodes.map Prod.snd))).goto i (.addedAll .startup [])
  | some (.addedAll _ _), .asked (.error e) => s.goto i (.done (.error e))
  | some (.addedAll .update new), .asked (.ok _) => announce s i .update 0 new
  | some (.addedAll .startup _), .asked (.ok _) => announce s i .startup s.nodes.length (s.nodes.map Prod.snd)
  | some (.adding _ _ _), .asked (.error e) => s.goto i (.done (.error e))
  | some (.adding k todo size), .asked (.ok _) => announce s i k size todo
  | _, _ => s

/-- What can happen. -/
inductive Op
  | start (k : Kind)
  | answer (i : Nat) (a : Ans)
  deriving DecidableEq, Repr

/-- One operation. -/
def step (s : State) : Op → State
  | .start k => { s with calls := s.calls ++ [.list k] }
  | .answer i a => answer s i a

/-- A schedule. -/
def run (s : State) (ops : List Op) : State := ops.foldl step s

/-! ## Messages -/

/-- What `messageReceived()` does with a message. -/
inductive Act
  | handed (nd : Nd)
  | asked
  deriving DecidableEq, Repr

/-- application.py:70-96. `handle` is what `node.handleMessage()` of a node gives, `asked` what asking the listeners gives. -/
def messageReceived (nodes : Dict Str Nd) (own : Nat) (handle : Nd → Py Ret) (asked : Py Unit) (root ep : Nat) : List Act × Py Bool :=
  match nodes.get? (key root ep) with
  | some nd => ([.handed nd], (handle nd).map Ret.truthy)
  | none =>
    if root ≠ own then ([], .ok false)
    else ([.asked], asked.map fun _ => true)

/-- What `onMessageReceived()` tells the listeners. -/
inductive Note
  | addNodeStatus (c : Msg)
  | removeNodeStatus (c : Msg)
  | nodeRemoved (n : Nat)
  | nodesRemoved (ns : List Nat)
  | messageReceived (c : Msg)
  deriving DecidableEq, Repr

/-- application.py:130-158. `ask` is what asking the listeners gives. `debugString()` of the unhandled message does not raise (C127). -/
def onMessageReceived (ask : Note → Py (List Ret)) (m : Msg) : List Note × Py Bool :=
  if m.hid ≠ Reg.Zip.ZipPacket.hid then ([], .ok false)
  else
    match m.command with
    | none => ([], .ok false)
    | some c =>
      if c.hid = Reg.NetworkManagementInclusion.NodeAddStatus.hid then ([.addNodeStatus c], (ask (.addNodeStatus c)).map fun _ => true)
      else if c.hid = Reg.NetworkManagementInclusion.NodeRemoveStatus.hid then
        match ask (.removeNodeStatus c) with
        | .error e => ([.removeNodeStatus c], .error e)
        | .ok _ =>
          if numAttr c "status" ≠ some 6 then ([.removeNodeStatus c], .ok true)
          else if numAttr c "nodeID" = some 0 then
            match ask (.nodeRemoved 0) with
            | .error e => ([.removeNodeStatus c, .nodeRemoved 0], .error e)
            | .ok _ => ([.removeNodeStatus c, .nodeRemoved 0, .nodesRemoved [0]], (ask (.nodesRemoved [0])).map fun _ => true)
          else ([.removeNodeStatus c], .ok true)
      else
        match ask (.messageReceived c) with
        | .error e => ([.messageReceived c], .error e)
        | .ok rs => ([.messageReceived c], .ok (rs.any fun r => r == .bool true))

end Model.App
