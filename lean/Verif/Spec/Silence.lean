import Verif.Model.ClassNet
import Verif.Model.Boot
import Verif.Model.NodeNet
import Verif.Model.Connect
import Verif.Model.MailNet
/-!
# Nothing arrives any more

What still happens when nothing arrives and nobody calls anything: time passes, timers fire and coroutines have their turns. A socket that is being opened can be opened, or cannot
(`ok`).
-/
namespace Spec.Silence
open Model

/-- A waiting call. -/
def waiterTurn : Waiter.Op → Bool
  | .timer _ | .resume _ | .cancelDone _ => true
  | _ => false

/-- A connection. -/
def connTurn : Conn.Op → Bool
  | .tick | .timer _ | .resume _ | .cancelled _ => true
  | .waiter o => waiterTurn o
  | _ => false

/-- The gateway. -/
def gatewayTurn (ok : Bool) : Gateway.Op → Bool
  | .conn o | .link _ o => connTurn o
  | .job _ _ => true
  | .opened _ b => b == ok
  | _ => false

/-- Calls of `connect()`. -/
def connectTurn (ok : Bool) : Connect.Op → Bool
  | .opened _ a => a.isSome == ok
  | .listened _ b => b == ok
  | .resume _ _ => true
  | .gw o => gatewayTurn ok o
  | .connect => false

/-- Calls of `sendToNode`. -/
def netTurn (ok : Bool) : ToNode.Op → Bool
  | .resume _ => true
  | .gw o => gatewayTurn ok o
  | _ => false

/-- Calls of `Node.sendAndReceive`. -/
def systemTurn (ok : Bool) : System.Op → Bool
  | .sent _ => true
  | .net o => netTurn ok o
  | .waiter _ .tick => true
  | .waiter _ o => waiterTurn o
  | _ => false

/-- Calls of `interview()` and `requestVersion()`. -/
def turn {σ : Type} (ok : Bool) : ClassNet.Op σ → Bool
  | .proceed _ => true
  | .sys o => systemTurn ok o
  | _ => false

/-- Calls of `Node.interview()`, and of the classes of the node. -/
def nodeTurn {σ : Nat → Type} (ok : Bool) : NodeNet.Op σ → Bool
  | .resume _ => true
  | .cls _ (.proceed _) => true
  | .sys o => systemTurn ok o
  | _ => false

/-- Handlers and heartbeats of the mailbox. No heartbeat wakes up. -/
def mailTurn (ok : Bool) : MailNet.Op → Bool
  | .proceed _ => true
  | .net o => netTurn ok o
  | _ => false

/-- Calls of the application. Listeners answer what they are asked with `r`. -/
def bootTurn (ok : Bool) (r : Py Unit) : Boot.Op → Bool
  | .resume _ _ => true
  | .asked _ x => decide (x = r)
  | .gw o => gatewayTurn ok o
  | _ => false

end Spec.Silence
