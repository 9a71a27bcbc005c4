import Verif.Model.Registry
/-!
# Z/IP packets

`ZipPacket(...)` with a command, and `ZipPacket.response` (commandclass/Zip.py:226-289).
-/
namespace Model
open Spec (Bytes)

/-- `ZipPacket(command=c, **kw)` (Zip.py:227-256, util.py:18-33). A command that is a Message is stored as it is;
`command=None` gives an empty `Message()` (util.py:29-31), modelled by `c = .pure`. -/
def constructZip (kw : String → Option Val) (c : Msg) : Py Msg := do
  let a ← initAttrs kw Reg.Zip.ZipPacket.fields []
  pure (.wrap Reg.Zip.ZipPacket.hid a c)

/-- A Python bool as argument of an integer class. -/
def boolVal (b : Bool) : Val := .num .pyint (if b then 1 else 0)

/-- An attribute passed on as argument of an integer class: `None` raises TypeError there. -/
def passNum (m : Msg) (name : String) : Py Val :=
  match getAttr registry m name with
  | some (.num _ v) => .ok (.num .pyint v)
  | _ => .error .type

/-- Zip.py:266-289 -/
def zipResponse (m : Msg) (success : Bool) (nackWaiting nackQueueFull nackOptionError : Bool := false) : Py Msg := do
  let secureOrigin ← passNum m "secureOrigin"
  let seqNo ← passNum m "seqNo"
  let sourceEP ← passNum m "destEP"
  let destEP ← passNum m "sourceEP"
  constructZip (fun n =>
    if n = "ackRequest" then some (boolVal false)
    else if n = "ackResponse" then some (boolVal success)
    else if n = "nackResponse" then some (boolVal (!success))
    else if n = "nackWaiting" then some (boolVal nackWaiting)
    else if n = "nackQueueFull" then some (boolVal nackQueueFull)
    else if n = "nackOptionError" then some (boolVal nackOptionError)
    else if n = "headerExtIncluded" then some (boolVal false)
    else if n = "zwCmdIncluded" then some (boolVal false)
    else if n = "moreInformation" then some (boolVal false)
    else if n = "secureOrigin" then some secureOrigin
    else if n = "seqNo" then some seqNo
    else if n = "sourceEP" then some sourceEP
    else if n = "destEP" then some destEP
    else none) .pure

end Model
