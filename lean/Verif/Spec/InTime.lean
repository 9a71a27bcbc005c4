import Verif.Spec.Follow
/-!
# Answers that arrive in time

Which schedules are in time (specification vocabulary for C143 and C144): no wait for an acknowledgement or a report runs out or is cancelled, the reports of the network that arrive on the connection are
answers to the last question, and nobody else asks. Everything else may happen in between, in any order and any number of times.
-/
namespace Spec.Peer
open Model

/-- A Z/IP packet (not a keep-alive and not a solicitation). -/
def isPacket : Bytes → Bool
  | 0x23 :: 0x02 :: _ => true
  | _ => false

/-- The last packet that has been transmitted. -/
def lastQuestion (out : List Bytes) : Option Bytes := out.reverse.find? isPacket

/-- A message of Network Management Proxy. -/
def proxy (hid : Nat) : Bool := hid / 256 = 0x52

/-- What may happen on the connection of the gateway. -/
def FineConn (w : Network) (c : Conn.State) : Conn.Op → Prop
  | .send _ _ _ _ => False
  | .packet b => ∀ p m, decode b = .ok p → p.command = some m → proxy m.hid = true → ∃ d, lastQuestion c.out = some d ∧ b = (w.reply d).2
  | .timer i => ∀ u, c.sends[i]? = some u → u.pc = .waiting → c.now < u.deadline
  | .kill i => ∀ u, c.sends[i]? = some u → ∃ r, u.pc = .done r
  | .waiter (.call _ h _) => proxy h = false
  | .waiter (.timer i) => ∀ t, c.w.tasks[i]? = some t → proxy t.hid = true → t.pc = .waiting → c.now < t.deadline
  | .waiter (.kill i) => ∀ t, c.w.tasks[i]? = some t → proxy t.hid = true → ∃ r, t.pc = .done r
  | _ => True

/-- What may happen to the gateway. -/
def FineGateway (w : Network) (g : Gateway.State) : Gateway.Op → Prop
  | .nm _ => False
  | .setMode _ => False
  | .setup _ => False
  | .conn o => FineConn w g.conn o
  | _ => True

/-- What may happen. The listeners answer startup without an exception. -/
def Fine (w : Network) (s : Boot.State) : Boot.Op → Prop
  | .startup => False
  | .update => False
  | .resume _ _ => True
  | .asked i r => i = 0 ∧ r = .ok ()
  | .gw o => FineGateway w s.gw o

/-- A schedule that is in time. -/
def InTime (w : Network) : Boot.State → List Boot.Op → Prop
  | _, [] => True
  | s, o :: ops => Fine w s o ∧ InTime w (Boot.step s o) ops

/-- A gateway that is connected, with nothing outstanding. -/
structure Idle (g : Gateway.State) : Prop where
  reached : ∃ ops, g = Gateway.run Gateway.init ops
  connected : g.conn.connected = true
  sends : ∀ u ∈ g.conn.sends, ∃ r, u.pc = .done r ∧ r ≠ .error .cancelled
  tasks : ∀ t ∈ g.conn.w.tasks, proxy t.hid = true → ∃ r, t.pc = .done r
  jobs : ∀ a t k, .ask a t k ∉ g.jobs

/-- The gateway has the right list of nodes or none, and enough numbers are left for the questions. -/
structure Ready (w : Network) (g : Gateway.State) : Prop extends Idle g where
  list : g.nodes = [] ∨ ((Dict.keys g.nodes).Nodup ∧ (∀ n, n ∈ Dict.keys g.nodes ↔ n ∈ w.nodes) ∧ g.nodeId = some (w.own.toNat : Int))
  enough : g.nmSeq + w.questions ≤ if g.nodes = [] then 255 else 256

/-- `startup()` is called in a new application. -/
def starting (g : Gateway.State) : Boot.State := Boot.step ⟨g, App.fresh 0, fun _ => none, 0⟩ .startup

/-! ## Updates -/

/-- What may happen while call `i` of the application runs. Its listeners do not answer it with an exception. -/
def FineFor (w : Network) (i : Nat) (s : Boot.State) : Boot.Op → Prop
  | .startup => False
  | .update => False
  | .resume _ _ => True
  | .asked j r => j = i → r = .ok ()
  | .gw o => FineGateway w s.gw o

/-- A schedule that is in time for call `i`. -/
def InTimeFor (w : Network) (i : Nat) : Boot.State → List Boot.Op → Prop
  | _, [] => True
  | s, o :: ops => FineFor w i s o ∧ InTimeFor w i (Boot.step s o) ops

/-- Between two calls of an application on node `own`: all calls have ended, and its table is in order. -/
structure Between (own : Nat) (s : Boot.State) : Prop extends Idle s.gw where
  id : Boot.ownId s.gw = own
  self : s.app.own = own
  calls : ∀ pc ∈ s.app.calls, ∃ r, pc = .done r
  orderly : Spec.App.Orderly s.app.nodes
  others : ∀ k nd, (k, nd) ∈ s.app.nodes → nd.root ≠ own

/-- The gateway has the nodes of the network, has said so, and enough numbers are left for the questions about the new ones. -/
structure Informed (w : Network) (s : Boot.State) : Prop extends Between w.own.toNat s where
  said : s.updates < s.gw.listUpdated
  some : s.gw.nodes ≠ []
  table : (Dict.keys s.gw.nodes).Nodup
  list : ∀ n, n ∈ Dict.keys s.gw.nodes ↔ n ∈ w.nodes
  enough : s.gw.nmSeq + w.news s.app.nodes ≤ 255

end Spec.Peer
