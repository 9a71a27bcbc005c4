import Verif.Model.Wire
import Verif.Props.Conn
import Verif.Props.Gateway
import Verif.Props.Application
/-!
# Property theorems C98: from a datagram to the node
-/
namespace Props.Wire
open Spec Model Model.App Model.Wire Spec.App Props.App

theorem zip_plain (h : ZipHeader) (hf : h.Fits) (hx : h.ext = false) (cb : Bytes) (c : Msg) (hne : cb ≠ []) (hc : decode cb = .ok c) :
    ∃ p, decode (h.bytes ++ cb) = .ok p ∧ Describes h p ∧ p.command = some c := by
  have hz := zip_decode h.flags0 h.flags1 (UInt8.ofNat h.seq) (UInt8.ofNat h.src) (UInt8.ofNat h.dst) cb
  have hb : zipBody h.flags1 cb = .ok (some [], cb) := by
    cases cb with
    | nil => exact absurd rfl hne
    | cons len tl => simp [zipBody, (flags1_ext h).mpr hx]
  rw [hb] at hz
  simp only [bind, Except.bind, hc, if_neg hne] at hz
  exact ⟨_, hz, describes_attrs h hf _ rfl (some []) rfl, rfl⟩

variable {own : Nat} (handle : Nd → Py Listen.Ret) (asked : Py Unit)

/-- **C98.** A Z/IP packet with a command that arrives on the connection of node `n`, from its end point `e`, and for which nobody waits on that connection: the application hands
the command to the node object of that node and end point, and to nobody else. For every history of the gateway and of the application. -/
theorem C98_connection (ops : List Gateway.Op) (n k : Nat) (l : Gateway.Link) (hk : (Gateway.run Gateway.init ops).conns.get? n = some k)
    (hl : (Gateway.run Gateway.init ops).links[k]? = some l)
    (h : ZipHeader) (hf : h.Fits) (hx : h.ext = false) (hcmd : h.cmd = true) (hq : h.ackRequest = false) (ha : h.ackResponse = false) (hnk : h.nackResponse = false)
    (cb : Bytes) (c : Msg) (hne : cb ≠ []) (hc : decode cb = .ok c) (hw : l.conn.w.sessions.get? c.hid = none)
    (a : State) (hist : History own a) (nd : Nd) (hnd : (nd.id, nd) ∈ a.nodes) (hroot : nd.root = n) (hep : nd.ep = h.src) :
    ∃ told, (Gateway.step (Gateway.run Gateway.init ops) (.link k (.packet (h.bytes ++ cb)))).told = (Gateway.run Gateway.init ops).told ++ [told] ∧
      told.message = some c ∧ received a.nodes own handle asked told = ([.handed nd], (handle nd).map Listen.Ret.truthy) := by
  obtain ⟨p, hp, hd, hpc⟩ := zip_plain h hf hx cb c hne hc
  have hinv : Gateway.LinkInv (Gateway.run Gateway.init ops) := Gateway.linkInv_init.run ops
  generalize Gateway.run Gateway.init ops = s at *
  obtain ⟨d1, d2, d3, d4, -, -, -, -, d9, -, -, -, d13, -⟩ := hd
  have hnode : ∃ v, s.conns.find? (fun p => p.2 = k) = some (n, v) := by
    have hmem : (n, k) ∈ s.conns := Dict.mem_of_get? hk
    cases hf : s.conns.find? (fun p => p.2 = k) with
    | none => have := List.find?_eq_none.mp hf _ hmem; simp at this
    | some p =>
      obtain ⟨m, v⟩ := p
      have hv : v = k := by have := List.find?_some hf; simpa using this
      have e1 := hinv.conns m v (List.mem_of_find?_eq_some hf)
      have e2 := hinv.conns n k hmem
      rw [hv, e2] at e1
      cases e1
      exact ⟨v, rfl⟩
  obtain ⟨v, hfind⟩ := hnode
  have ht := Props.Gateway.link_told s k n v l hl hfind (.packet (h.bytes ++ cb))
  obtain ⟨hdel, -⟩ := C35_command_partial l.conn (h.bytes ++ cb) p c hp ⟨d1, by rw [d3, ha], by rw [d4, hnk], by rw [d2, hq], by rw [d9, hcmd], hpc⟩
    (fun f hf => by rw [hw] at hf; cases hf)
  have hheard : (Conn.step l.conn (.packet (h.bytes ++ cb))).heard = l.conn.heard ++ [p] := by
    rcases hdel with ⟨h1, -⟩ | ⟨-, f, h1, -⟩
    · exact h1
    · rw [hw] at h1; cases h1
  rw [hheard, List.drop_left] at ht
  refine ⟨Gateway.toldOf n p, ht, ?_, ?_⟩
  · simp only [Gateway.toldOf, d1, if_true, hpc]
  · simp only [received, Gateway.toldOf, d1, if_true, d13, Int.toNat_natCast]
    exact C55_handed own handle asked n h.src (C53_orderly hist).1 hnd hroot hep

/-- **C98.** The same for a packet from the address of node `n` on the unsolicited connection. -/
theorem C98_unsolicited (s : Gateway.State) (h : ZipHeader) (hf : h.Fits) (hx : h.ext = false) (cb : Bytes) (c : Msg) (hne : cb ≠ []) (hc : decode cb = .ok c)
    (hid : c.hid ≠ 0x5202) (sender : Bytes) (order : List Nat) (n : Nat) (hn : s.nodes.get? n = some (some sender))
    (honly : ∀ e ∈ s.nodes, e.2 = some sender → e.1 = n)
    (a : State) (hist : History own a) (nd : Nd) (hnd : (nd.id, nd) ∈ a.nodes) (hroot : nd.root = n) (hep : nd.ep = h.src) :
    ∃ told, (Gateway.step s (.unsolicited (h.bytes ++ cb) sender order)).told = s.told ++ [told] ∧
      told.message = some c ∧ received a.nodes own handle asked told = ([.handed nd], (handle nd).map Listen.Ret.truthy) := by
  have hfind : ∃ v, s.nodes.find? (fun e => e.2 = some sender) = some (n, v) := by
    cases hf : s.nodes.find? (fun e => e.2 = some sender) with
    | none => have := List.find?_eq_none.mp hf _ (Dict.mem_of_get? hn); simp at this
    | some p =>
      obtain ⟨m, v⟩ := p
      have hv : v = some sender := by have := List.find?_some hf; simpa using this
      have : m = n := honly _ (List.mem_of_find?_eq_some hf) hv
      subst this
      exact ⟨v, rfl⟩
  obtain ⟨v, hfind⟩ := hfind
  obtain ⟨p, hp, hd, hpc⟩ := zip_plain h hf hx cb c hne hc
  have := (Props.Gateway.unsolicited_known s h hf cb p hp hd (by rw [hpc]; simpa using hid) sender order).1 n v hfind
  rw [this]
  refine ⟨_, rfl, hpc, ?_⟩
  simp only [received, Int.toNat_natCast]
  exact C55_handed own handle asked n h.src (C53_orderly hist).1 hnd hroot hep

/-- **C98.** Whatever arrives on any connection, and whatever the gateway and the application went through: if the application hands something to a node object, then it came on
a connection opened for that node. -/
theorem C98_only (ops : List Gateway.Op) (k : Nat) (o : Conn.Op) (a : State) (hist : History own a) :
    ∃ new, (Gateway.step (Gateway.run Gateway.init ops) (.link k o)).told = (Gateway.run Gateway.init ops).told ++ new ∧
      ∀ t ∈ new, ∀ nd, .handed nd ∈ (received a.nodes own handle asked t).1 →
        ∃ l e, (Gateway.run Gateway.init ops).links[k]? = some l ∧ nd.root = l.node ∧ t.sourceEP = some e ∧ nd.ep = e.toNat ∧ (nd.id, nd) ∈ a.nodes := by
  obtain ⟨new, h1, h2⟩ := Props.Gateway.C46_attributed ops k o
  refine ⟨new, h1, fun t ht nd hnd => ?_⟩
  obtain ⟨l, hl, hn⟩ := h2 t ht
  unfold received at hnd
  split at hnd
  · rename_i e he
    obtain ⟨g1, g2, g3⟩ := C55_only own handle asked t.node e (C53_orderly hist).1 hnd
    exact ⟨l, e, hl, by rw [g1, hn], he, g2, g3⟩
  · split at hnd <;> simp at hnd

/-- **C98.** A message from another node that does not name its end point is given to nobody and counts as not handled. One from the controller itself is asked of the listeners. -/
theorem C98_no_endpoint (nodes : Dict Str Nd) (t : Gateway.Told) (h : t.sourceEP = none) :
    (t.node ≠ own → received nodes own handle asked t = ([], .ok false)) ∧
    (t.node = own → received nodes own handle asked t = ([.asked], asked.map fun _ => true)) := by
  unfold received
  rw [h]
  exact ⟨fun hn => by simp [hn], fun hn => by simp [hn]⟩

/-- Node 3 is connected to; a switch report arrives from its end point 2. Node, end point and application state are as in the theorems above. -/
def connected3 : List Gateway.Op :=
  [.conn .connect, .connectToNode 3] ++ Props.Gateway.answered 0 0 3 (Props.Gateway.addr 3) ++ [.opened 0 true]

example : let s := Gateway.run Gateway.init connected3
    let h : ZipHeader := { cmd := true, secure := true, seq := 7, src := 2, dst := 0 }
    s.conns.get? 3 = some 0 ∧ s.links.map (fun l => (l.node, l.conn.w.sessions.get? 0x2503)) = [(3, none)] ∧ h.Fits ∧
    h.bytes ++ [0x25, 0x03, 0xFF] = [0x23, 0x02, 0x00, 0x50, 0x07, 0x02, 0x00, 0x25, 0x03, 0xFF] ∧
    ((⟨3, 3, 2, plain⟩ : Nd).id, (⟨3, 3, 2, plain⟩ : Nd)) ∈ started.nodes ∧
    (Gateway.step s (.link 0 (.packet [0x23, 0x02, 0x00, 0x50, 0x07, 0x02, 0x00, 0x25, 0x03, 0xFF]))).told.map
      (fun t => (received started.nodes 1 (fun _ => .ok (.bool true)) (.ok ()) t)) = [([.handed ⟨3, 3, 2, plain⟩], .ok true)] := by
  refine ⟨by decide +kernel, by decide +kernel, ⟨by decide, by decide, by decide⟩, by decide +kernel, by decide +kernel, by decide +kernel⟩

end Props.Wire
