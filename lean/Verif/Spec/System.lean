import Verif.Model.Gateway
/-!
# What it means that a command came from a node
-/
namespace Spec.System
open Model

/-- The packet has the command `c` from the end point `ep`. -/
def Carries (p : Msg) (ep : Nat) (c : Msg) : Prop := p.num? "sourceEP" = some (ep : Int) ∧ p.command = some c

/-- The operation is the arrival of a datagram with the command `c` from the end point `ep` of node `n`: on a connection that was opened for node `n`, or on the unsolicited
connection from the address the gateway has for node `n`. On a connection to a node, a command that is not in a Z/IP packet counts as from the node itself. -/
def FromNode (g : Gateway.State) (o : Gateway.Op) (n ep : Nat) (c : Msg) : Prop :=
  (∃ k l b p, o = .link k (.packet b) ∧ g.links[k]? = some l ∧ l.node = n ∧ decode b = .ok p ∧ (Carries p ep c ∨ p.hid ≠ 0x2302 ∧ ep = 0 ∧ c = p)) ∨
  ∃ b sender order p, o = .unsolicited b sender order ∧ (n, some sender) ∈ g.nodes ∧ decode b = .ok p ∧ Carries p ep c

/-- The command is the message, or is wrapped around it: a Supervision Get. -/
def Wraps (c m : Msg) : Prop := c = m ∨ c.hid = 0x6C01 ∧ c.command = some m

end Spec.System
