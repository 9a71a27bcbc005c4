import Verif.Model.Conn
/-!
# What received packets mean for a connection (specification vocabulary for C29-C36)
-/
namespace Spec
open Model

/-- The datagram `b` is a Z/IP packet acknowledging packet number `q`. -/
def AckFor (b : Bytes) (q : Nat) : Prop :=
  ∃ p, decode b = .ok p ∧ p.hid = 0x2302 ∧ p.flag "ackResponse" = true ∧ ¬ (p.flag "nackResponse" = true ∧ p.flag "nackWaiting" = true) ∧
    p.num? "seqNo" = some (q : Int)

/-- The datagram `b` is a Z/IP packet saying that packet number `q` is waiting to be delivered in about `d` seconds. -/
def WaitingFor (b : Bytes) (q : Nat) (d : Int) : Prop :=
  ∃ p x, decode b = .ok p ∧ p.hid = 0x2302 ∧ p.flag "nackResponse" = true ∧ p.flag "nackWaiting" = true ∧
    p.num? "seqNo" = some (q : Int) ∧ p.attr "headerExtension" = some (.hdr x) ∧ expectedDelay x = .ok d

/-- How long to wait after being told to expect a delay of `d` seconds: a minute longer, three minutes if the delay is negative. -/
def patience (d : Int) : Nat := if d < 0 then 180 else d.toNat + 60

end Spec
