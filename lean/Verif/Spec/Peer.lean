import Verif.Model.Boot
import Verif.Spec.Application
/-!
# A Z/IP gateway that answers

What is at the other end of the connection: a Z/IP gateway that acknowledges every packet and answers every question about its network. Used to state C135. It is written
from the Z-Wave specification of Network Management Proxy (0x52).
-/
namespace Spec.Peer
open Model

/-- What is known of a node. -/
structure NodeBytes where
  flags : UInt8                  -- bit 7: listening
  basic : UInt8
  generic : UInt8
  specific : UInt8
  classes : Bytes

/-- What is known of an end point. -/
structure EndPointBytes where
  generic : UInt8
  specific : UInt8
  classes : Bytes

/-- The network of a gateway. Bit `(n - 1) % 8` of byte `(n - 1) / 8` of a mask stands for node `n`. -/
structure Network where
  own : UInt8
  mask : Bytes
  failed : Bytes
  node : UInt8 → NodeBytes
  individual : UInt8 → UInt8
  aggregated : UInt8 → UInt8
  endPoint : UInt8 → UInt8 → EndPointBytes

/-- The answer to a question. -/
def Network.report (w : Network) : Bytes → Bytes
  | [0x52, 0x01, q] => 0x52 :: 0x02 :: q :: 0 :: w.own :: w.mask
  | [0x52, 0x03, q, _, n] =>
    0x52 :: 0x04 :: q :: 0 :: (w.node n).flags :: 0 :: 0 :: (w.node n).basic :: (w.node n).generic :: (w.node n).specific :: (w.node n).classes
  | [0x52, 0x05, q, n] => [0x52, 0x06, q, n, 0, w.individual n, w.aggregated n]
  | [0x52, 0x07, q, n, e] =>
    0x52 :: 0x08 :: q :: n :: UInt8.ofNat (w.endPoint n e).classes.length :: e :: (w.endPoint n e).generic :: (w.endPoint n e).specific :: (w.endPoint n e).classes
  | [0x52, 0x0B, q] => 0x52 :: 0x0C :: q :: w.failed
  | _ => []

/-- What is sent back for a packet: the acknowledgement, and the answer. -/
def Network.reply (w : Network) : Bytes → Bytes × Bytes
  | 0x23 :: 0x02 :: _ :: _ :: seq :: _ :: _ :: cmd => ([0x23, 0x02, 0x40, 0x10, seq, 0, 0], [0x23, 0x02, 0x00, 0x40, 1, 0, 0] ++ w.report cmd)
  | _ => ([], [])

/-- The node is marked in the mask. -/
def marked (mask : Bytes) (n : Nat) : Bool := decide (1 ≤ n) && match mask[(n - 1) / 8]? with
  | some b => b.toNat.testBit ((n - 1) % 8)
  | none => false

/-- The nodes of the network. -/
def Network.nodes (w : Network) : List Nat := (List.range 256).filter (marked w.mask)

/-- The network as an application should see it, with the list of nodes in some order. -/
def Network.net (w : Network) (list : List Nat) : Spec.App.Net where
  list := list
  info n :=
    let x := w.node (UInt8.ofNat n)
    ⟨x.classes.map UInt8.toNat, x.basic.toNat, x.generic.toNat, x.specific.toNat, decide (128 ≤ x.flags.toNat)⟩
  eps n := (w.individual (UInt8.ofNat n)).toNat % 128 + (w.aggregated (UInt8.ofNat n)).toNat % 128
  cap n e :=
    let x := w.node (UInt8.ofNat n)
    let y := w.endPoint (UInt8.ofNat n) (UInt8.ofNat e)
    ⟨y.classes.map UInt8.toNat, x.basic.toNat, y.generic.toNat, y.specific.toNat, decide (128 ≤ x.flags.toNat)⟩

/-- How many questions are needed for a node: one for the node, and for a multi channel node one for the number of end points and one for each of them. -/
def cost (net : Spec.App.Net) (n : Nat) : Nat := 1 + if App.multiChannel (net.info n) then 1 + net.eps n else 0

/-- How many are needed for the nodes of a list, without the gateway itself. -/
def costs (own : Nat) (net : Spec.App.Net) (l : List Nat) : Nat := (l.map fun n => if n = own then 0 else cost net n).sum

/-- How many questions are needed for the network: also one for the list of the nodes and one for the list of failed nodes. -/
def Network.questions (w : Network) : Nat := 1 + costs w.own.toNat (w.net []) w.nodes + 1

/-- A network as it should be: masks have 28 bytes, command classes are reported for all nodes and end points and an application accepts them (C48), and no node has more than 127
end points. -/
structure Network.Regular (w : Network) : Prop where
  mask : w.mask.length = 28
  failed : w.failed.length = 28
  nodes : ∀ n ∈ w.nodes, n ≠ w.own.toNat → (w.node (UInt8.ofNat n)).classes ≠ [] ∧ Spec.App.Accepted ((w.net []).info n)
  ends : ∀ n ∈ w.nodes, n ≠ w.own.toNat → App.multiChannel ((w.net []).info n) = true → (w.net []).eps n ≤ 127 ∧
    ∀ e, 1 ≤ e → e ≤ (w.net []).eps n → (w.endPoint (UInt8.ofNat n) (UInt8.ofNat e)).classes ≠ [] ∧ Spec.App.Accepted ((w.net []).cap n e)

/-! ## The schedule -/

/-- The acknowledgement and the answer arrive at the coroutine that asked last, step by step. -/
def answering (K J T : Nat) (ack report : Bytes) : List Gateway.Op :=
  [.conn (.packet ack), .conn (.resume K), .job J [], .conn (.packet report), .conn (.waiter (.resume T)), .job J []]

/-- The same, for the last question. -/
def answeringLast (g : Gateway.State) (ack report : Bytes) : List Gateway.Op :=
  answering (g.conn.sends.length - 1) (g.jobs.length - 1) (g.conn.w.tasks.length - 1) ack report

/-- One turn: if a packet has been sent (after the first `seen` ones), the answer to it arrives; then startup goes on. -/
def turn (w : Network) (order : List Nat) (p : Boot.State × Nat) : Boot.State × Nat :=
  match p.1.gw.conn.out[p.2]? with
  | some d => (Boot.step { p.1 with gw := Gateway.run p.1.gw (answeringLast p.1.gw (w.reply d).1 (w.reply d).2) } (.resume 0 order), p.2 + 1)
  | none => (Boot.step p.1 (.resume 0 order), p.2)

/-- The connection is opened, `startup()` is called, and there are some turns. -/
def turns (w : Network) (order : List Nat) : Nat → Boot.State × Nat
  | 0 => (Boot.run Boot.init [.gw (.conn .connect), .startup], 0)
  | n + 1 => turn w order (turns w order n)

/-- The listeners answer. -/
def listened (s : Boot.State) (n : Nat) : Boot.State := Boot.run s (List.replicate n (.asked 0 (.ok ())))

/-- After some turns, the listeners answer once and once for each node. -/
def started (w : Network) (order : List Nat) (n : Nat) : Boot.State := listened (turns w order n).1 (1 + (turns w order n).1.app.nodes.length)

end Spec.Peer
