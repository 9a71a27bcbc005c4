import Verif.Model.Gateway
import Verif.Model.Application
/-!
# From the gateway to the application

The application listens to the gateway (application.py:29); what the gateway tells its listeners with `speak("messageReceived", …)` (zipgateway.py:253-259, 282-288)
becomes a call of `Application.messageReceived()` (application.py:70-96).
-/
namespace Model.Wire
open Model.App

/-- The call of `Application.messageReceived()` for what the gateway told. If a packet ends before the end point
(`None`), the id `"n:None"` is none of the ids in the table, and neither is one with a negative number. -/
def received (nodes : Dict Str Nd) (own : Nat) (handle : Nd → Py Listen.Ret) (asked : Py Unit) (t : Gateway.Told) : List Act × Py Bool :=
  match t.sourceEP with
  | some (.ofNat e) => messageReceived nodes own handle asked t.node e
  | _ => if t.node ≠ own then ([], .ok false) else ([.asked], asked.map fun _ => true)

end Model.Wire
