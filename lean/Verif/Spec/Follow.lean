import Verif.Spec.Peer
import Verif.Spec.Zip
/-!
# A network that changes

A Z/IP gateway (`Spec/Peer.lean`) that sends a node list report when its network changes, and advertises the addresses of nodes it is asked for. Used to state C137.
-/
namespace Spec.Peer
open Model Spec

/-- Some times. -/
def times {α : Type} (f : α → α) : Nat → α → α
  | 0, x => x
  | n + 1, x => times f n (f x)

/-- Where the nodes are: an address for every node, and the home id. -/
structure Addresses where
  of : UInt8 → Bytes
  home : Bytes
  sixteen : ∀ n, (of n).length = 16
  four : home.length = 4

/-- The ZipNodeAdvertisement of a node. -/
def Addresses.advertisement (a : Addresses) (n : UInt8) : Bytes := 0x58 :: 0x01 :: 0 :: n :: (a.of n ++ a.home)

/-- If a ZipInvNodeSolicitation has been sent (after the first `seen` packets), the advertisement for it arrives, and the coroutine that started last goes on. -/
def lookedUp (a : Addresses) (p : Gateway.State × Nat) : Gateway.State × Nat :=
  match p.1.conn.out[p.2]? with
  | some [0x58, 0x04, _, n] =>
    (Gateway.run p.1 [.conn (.packet (a.advertisement n)), .conn (.waiter (.resume (p.1.conn.w.tasks.length - 1))), .job (p.1.jobs.length - 1) []], p.2 + 1)
  | _ => p

/-- One turn of call `i` of the application: if a packet has been sent, the answer to it arrives and the call goes on; if none has been sent it goes on at once, or the listeners answer it. -/
def turnOf (w : Network) (order : List Nat) (i : Nat) (p : Boot.State × Nat) : Boot.State × Nat :=
  match p.1.gw.conn.out[p.2]? with
  | some d => (Boot.step { p.1 with gw := Gateway.run p.1.gw (answeringLast p.1.gw (w.reply d).1 (w.reply d).2) } (.resume i order), p.2 + 1)
  | none =>
    match p.1.waits i with
    | some _ => (Boot.step p.1 (.resume i order), p.2)
    | none => (Boot.step p.1 (.asked i (.ok ())), p.2)

/-- The nodes of the network that are in no table yet. -/
def unknown (g : Gateway.State) (w : Network) : List Nat := w.nodes.filter fun n => !g.nodes.mem n

/-- The packet with the node list report of the network. -/
def Network.notice (w : Network) (h : ZipHeader) (seq status : UInt8) : Bytes := h.bytes ++ 0x52 :: 0x02 :: seq :: status :: w.own :: w.mask

/-- What the schedule is free in: the header, sequence number and status of the report, its sender, and the orders in which the sets are iterated. -/
structure Freedom where
  header : ZipHeader
  fits : header.Fits
  plain : header.ext = false
  seq : UInt8
  status : UInt8
  sender : Bytes
  lookups : List Nat
  loads : List Nat

/-- A report for the network arrives and all new nodes are looked up. -/
def noticed (w : Network) (a : Addresses) (f : Freedom) (s : Boot.State) : Boot.State × Nat :=
  let p := times (lookedUp a) (unknown s.gw w).length (Gateway.step s.gw (.unsolicited (w.notice f.header f.seq f.status) f.sender f.lookups), s.gw.conn.out.length)
  ({ s with gw := p.1 }, p.2)

/-- Then the application is told, and there are some turns. -/
def followed (w : Network) (a : Addresses) (f : Freedom) (s : Boot.State) (n : Nat) : Boot.State :=
  (times (turnOf w f.loads s.app.calls.length) n (Boot.step (noticed w a f s).1 .update, (noticed w a f s).2)).1

/-- How many questions are needed for the nodes the application does not know. -/
def Network.news (w : Network) (t : Dict Str App.Nd) : Nat := costs w.own.toNat (w.net []) (w.nodes.filter fun n => !t.mem (App.key n 0))

/-- Nothing is outstanding on the connection, and the application, which is on node `own`, is up to date with its gateway. -/
structure Settled (own : Nat) (s : Boot.State) : Prop where
  connected : s.gw.conn.connected = true
  acks : s.gw.conn.ackQueue = []
  sessions : s.gw.conn.w.sessions = []
  caught : s.updates = s.gw.listUpdated
  id : Boot.ownId s.gw = own
  self : s.app.own = own
  table : (Dict.keys s.gw.nodes).Nodup
  orderly : Spec.App.Orderly s.app.nodes
  others : ∀ k nd, (k, nd) ∈ s.app.nodes → nd.root ≠ own

end Spec.Peer
