import Verif.Model.NodeNet
import Verif.Spec.ClassNet
/-!
# Where the things the command classes of a node hold should come from
-/
namespace Spec.NodeNet
open Model Model.NodeNet Spec.System

/-- A node object with command classes with the numbers `ids`, and what has happened: first `pre`, then `ops`. The object is in the table of nodes after `pre`, and not used before. -/
structure Life (σ : Nat → Type) where
  own : Nat
  node : Node σ
  ids : Nat → Nat
  attrs : (k : Nat) → σ k
  pre : List System.Op
  ops : List (Op σ)
  known : (node.nd.id, node.nd) ∈ (System.run (System.init own) pre).app.nodes

variable {σ : Nat → Type}

/-- Everything that has happened. -/
def Life.all (h : Life σ) : List (Op σ) := h.pre.map .sys ++ h.ops

/-- How it is after `l`. -/
def Life.after (h : Life σ) (l : List (Op σ)) : State σ := run h.node (init h.own h.ids h.attrs) l

/-- How it is now. -/
def Life.now (h : Life σ) : State σ := h.after h.all

/-- The message came in a datagram from the node and end point, perhaps in a Supervision Get. -/
def Life.Said (h : Life σ) (m : Msg) : Prop :=
  ∃ x, Wraps x m ∧ ∃ before o after, h.all = before ++ .sys (.net (.gw o)) :: after ∧ FromNode (h.after before).sys.net.gw o h.node.nd.root h.node.nd.ep x

/-- The command was sent to the node and end point, on a connection that was opened for the node, and that connection received the acknowledgement with the number of the datagram. -/
def Life.Acknowledged (h : Life σ) (cmd : Msg) : Prop :=
  ∃ before k b after, h.all = before ++ .sys (.net (.gw (.link k (.packet b)))) :: after ∧
    ∃ d ∈ (h.after before).sys.net.calls, ∃ l n, d.node = h.node.nd.root ∧ d.cmd = cmd ∧ d.destEP = h.node.nd.ep ∧ d.pc = .sending k n ∧
      (h.after before).sys.net.gw.links[k]? = some l ∧ l.node = h.node.nd.root ∧ Spec.AckFor b ((n + 1) % 256)

/-- The version of class number `k` was loaded. -/
def Life.LoadedVersion (h : Life σ) (k v : Nat) : Prop := ∃ b f, .cls k (.load v b f) ∈ h.ops

/-- Only interviews change the attributes of class number `k`. -/
def Life.OnlyAsked (h : Life σ) (k : Nat) : Prop := (∀ v b f, .cls k (.load v b f) ∉ h.ops) ∧ ∀ f, .cls k (.others f) ∉ h.ops

end Spec.NodeNet
