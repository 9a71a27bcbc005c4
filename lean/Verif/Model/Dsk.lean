import Verif.Model.Gateway
import Verif.Model.Text
/-!
# Keys as arguments

What can be given as `dsk` to `addNodeDSKSet` (zipgateway.py:48-59) and to `NodeProvisioning.Set`. In `Model/Gateway.lean` it is always bytes.
-/
namespace Model.Dsk
open Spec (Bytes)

/-- The argument: bytes, a text, or a `dsk_t` object as it is found in a message. -/
inductive Arg
  | raw (b : Bytes)
  | text (s : Str)
  | key (b : Bytes)

/-- util.py:29-31 with types.py:338-339 and 355-370: the attribute is a new, empty `dsk_t` whose state is set to the argument. A `dsk_t` object has no method `split`. -/
def given : Arg → Py Bytes
  | .raw b => dskSetState [] (.raw b)
  | .text s => dskSetState [] (.text s)
  | .key _ => .error .attribute

/-- The command of zipgateway.py:51-54 as it is sent. -/
def dskSet (seq : Nat) (accept : Bool) (inputDSKLength : Int) (a : Arg) : Py Bytes := do
  let key ← given a
  let m ← (Gateway.Nm.addNodeDSKSet accept inputDSKLength key).command seq
  compose m

/-- `NodeProvisioning.Set(seqNo=seq, dsk=a, metaDataExtension=meta)` (NodeProvisioning.py:46-52) as it is sent. -/
def provision (seq : Nat) (a : Arg) (ext : Bytes) : Py Bytes := do
  let key ← given a
  let m ← construct Reg.NodeProvisioning.Set fun n =>
    if n = "seqNo" then some (.num .pyint seq) else if n = "dsk" then some (.bytes key) else if n = "metaDataExtension" then some (.bytes ext) else none
  compose m

end Model.Dsk
