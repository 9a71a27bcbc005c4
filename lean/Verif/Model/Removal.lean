import Verif.Model.Gateway
/-!
# `Node.remove` (`pyzwave/node.py` lines 221-230)
-/
namespace Model
open Spec

/-- node.py:227 with NetworkManagementInclusion.py:66: is the status that `removeFailedNode` returned DONE?
A status that was cut off the report is `None`, which equals no number. -/
def statusDone : Gateway.Ret → Bool
  | .num v => v = 1
  | .val (some (.num _ v)) => v = 1
  | _ => false

/-- node.py:221-230: what `remove()` makes of the end of `removeFailedNode`. An exception is passed on. -/
def nodeRemove : Py Gateway.Ret → Py Bool
  | .ok status => .ok (statusDone status)
  | .error e => .error e

end Model
