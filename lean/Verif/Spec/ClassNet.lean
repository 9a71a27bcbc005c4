import Verif.Model.ClassNet
import Verif.Spec.System
import Verif.Spec.ClassRun
import Verif.Spec.Conn
/-!
# Where the things a command class holds should come from
-/
namespace Spec.ClassNet
open Model Model.ClassNet Spec.System
open Model.App (Nd)
open Model.ClassRun (Cls)

/-- A command class object `c` with number `id` of the node object `nd`, and what has happened: first `pre`, then `ops`. The object is in the table of nodes after `pre`, and the
class is not used before. -/
structure Life (σ : Type) where
  own : Nat
  nd : Nd
  c : Cls σ
  id : Nat
  attrs : σ
  pre : List System.Op
  ops : List (Op σ)
  known : (nd.id, nd) ∈ (System.run (System.init own) pre).app.nodes

variable {σ : Type}

/-- Everything that has happened. -/
def Life.all (h : Life σ) : List (Op σ) := h.pre.map .sys ++ h.ops

/-- How it is after `l`. -/
def Life.after (h : Life σ) (l : List (Op σ)) : State σ := run h.nd h.c (init h.own h.id h.attrs) l

/-- How it is now. -/
def Life.now (h : Life σ) : State σ := h.after h.all

/-- The message came in a datagram from the node and end point, perhaps in a Supervision Get. -/
def Life.Said (h : Life σ) (m : Msg) : Prop :=
  ∃ x, Wraps x m ∧ ∃ before o after, h.all = before ++ .sys (.net (.gw o)) :: after ∧ FromNode (h.after before).sys.net.gw o h.nd.root h.nd.ep x

/-- The command was sent to the node and end point, on a connection that was opened for the node, and that connection received the acknowledgement with the number of the datagram. -/
def Life.Acknowledged (h : Life σ) (cmd : Msg) : Prop :=
  ∃ before k b after, h.all = before ++ .sys (.net (.gw (.link k (.packet b)))) :: after ∧
    ∃ d ∈ (h.after before).sys.net.calls, ∃ l n, d.node = h.nd.root ∧ d.cmd = cmd ∧ d.destEP = h.nd.ep ∧ d.pc = .sending k n ∧
      (h.after before).sys.net.gw.links[k]? = some l ∧ l.node = h.nd.root ∧ Spec.AckFor b ((n + 1) % 256)

/-- The version was loaded. -/
def Life.LoadedVersion (h : Life σ) (v : Nat) : Prop := ∃ b f, .load v b f ∈ h.ops

/-- Only interviews change the attributes. -/
def Life.OnlyAsked (h : Life σ) : Prop := ∀ o ∈ h.ops, (∀ v b f, o ≠ .load v b f) ∧ ∀ f, o ≠ .others f

end Spec.ClassNet
