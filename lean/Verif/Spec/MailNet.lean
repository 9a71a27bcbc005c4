import Verif.Model.MailNet
import Verif.Spec.Mailbox
import Verif.Spec.Conn
/-!
# Where the things the mailbox holds and sends should come from
-/
namespace Spec.MailNet
open Model Model.MailNet Spec.Mailbox
open Model.Mailbox (Out Item)

/-- The operation is the arrival of a datagram with the command `c` from node `n`: on a connection that was opened for node `n`, or on the unsolicited connection from the address the
gateway has for node `n`. -/
def Heard (g : Gateway.State) (o : Gateway.Op) (n : Nat) (c : Msg) : Prop :=
  (∃ k l b p, o = .link k (.packet b) ∧ g.links[k]? = some l ∧ l.node = n ∧ decode b = .ok p ∧ (p.command = some c ∨ p.hid ≠ 0x2302 ∧ c = p)) ∨
  ∃ b sender order p, o = .unsolicited b sender order ∧ (n, some sender) ∈ g.nodes ∧ decode b = .ok p ∧ p.command = some c

/-- The message came in a datagram from node `n`. -/
def Came (ops : List Op) (n : Nat) (m : Msg) : Prop :=
  ∃ before o later, ops = before ++ .net (.gw o) :: later ∧ Heard (run init before).net.gw o n m

/-- Node `n` pushed `x` to the queue `h`. -/
def Pushed (ops : List Op) (n : Nat) (h : Int) (x : List UInt8) : Prop := ∃ m, Came ops n m ∧ IsPush m h x

/-- The message asks for an entry of the queue `h`: a node wakes up, or acknowledges an entry. An acknowledgement may name no queue. -/
def Asks (m : Msg) (h : Int) : Prop :=
  IsWakeup m h ∨ m.hid = Reg.Mailbox.Queue.hid ∧ Classes.numAttr m "operation" = some 4 ∧
    (Classes.numAttr m "queueHandle" = some h ∨ Classes.numAttr m "queueHandle" = none ∨ Classes.numAttr m "queueHandle" = some 0)

/-- Node `n` asked for an entry of the queue `h`. -/
def Asked (ops : List Op) (n : Nat) (h : Int) : Prop := ∃ m, Came ops n m ∧ Asks m h

/-- The command was sent to node `n`, on a connection that was opened for the node, and that connection received the acknowledgement with the number of the datagram. -/
def Acknowledged (ops : List Op) (n : Nat) (cmd : Msg) : Prop :=
  ∃ before k b later, ops = before ++ .net (.gw (.link k (.packet b))) :: later ∧
    ∃ d ∈ (run init before).net.calls, ∃ l i, d.node = n ∧ d.cmd = cmd ∧ d.destEP = 0 ∧ d.pc = .sending k i ∧
      (run init before).net.gw.links[k]? = some l ∧ l.node = n ∧ Spec.AckFor b ((i + 1) % 256)

/-- The message was given to `sendToNode`. -/
def Given (ops : List Op) (o : Out) : Prop := ∃ d ∈ (run init ops).net.calls, d.node = o.node ∧ o.msg = .ok d.cmd ∧ d.sourceEP = 0 ∧ d.destEP = 0

/-- The message that tells the node that its entry waits in the queue. -/
def waiting (it : Item) : Out := ⟨it.node, false, .waiting, it.handle, some it.data⟩

end Spec.MailNet
