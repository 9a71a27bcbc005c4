import Verif.Model.Gateway
/-!
# Network management commands on the wire (specification vocabulary for C43)
-/
namespace Spec
open Model.Gateway

/-- A number that fits in a byte. -/
def InByte (v : Int) : Prop := 0 ≤ v ∧ v < 256

/-- The arguments can be sent: numbers are in range, a DSK has 16 bytes (or is left out). -/
def NmFits : Nm → Prop
  | .addNode tx => InByte tx
  | .addNodeDSKSet _ l d => 0 ≤ l ∧ l < 16 ∧ (d.length = 16 ∨ d.length = 0)
  | .addNodeKeysSet _ _ k => InByte k
  | .getMultiChannelEndPoints n => InByte n
  | .getMultiChannelCapability n e => InByte n ∧ 0 ≤ e ∧ e < 128
  | .getNodeInfo n => InByte n
  | .removeFailedNode n => InByte n
  | _ => True

/-- A byte. -/
def byte (v : Int) : UInt8 := UInt8.ofNat v.toNat

/-- The command with number `q`, as in the Z-Wave specification of Network Management Inclusion (0x34) and Network Management Proxy (0x52). -/
def nmBytes (q : Nat) : Nm → Bytes
  | .addNode tx => [0x34, 0x01, byte q, 0, 7, byte tx]
  | .addNodeDSKSet a l d => [0x34, 0x14, byte q, byte ((if a then 128 else 0) + l)] ++ d
  | .addNodeKeysSet c a k => [0x34, 0x12, byte q, (if c then 2 else 0) + (if a then 1 else 0), byte k]
  | .addNodeStop => [0x34, 0x01, byte q, 0, 5, 0]
  | .getFailedNodeList => [0x52, 0x0B, byte q]
  | .getMultiChannelEndPoints n => [0x52, 0x05, byte q, byte n]
  | .getMultiChannelCapability n e => [0x52, 0x07, byte q, byte n, byte e]
  | .getNodeList => [0x52, 0x01, byte q]
  | .getNodeInfo n => [0x52, 0x03, byte q, 15, byte n]
  | .removeFailedNode n => [0x34, 0x07, byte q, byte n]
  | .removeNode => [0x34, 0x03, byte q, 0, 1]
  | .removeNodeStop => [0x34, 0x03, byte q, 0, 5]

end Spec
