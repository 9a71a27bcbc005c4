import Verif.Model.MailboxInit
import Verif.Lemmas.NetMan
import Verif.Props.Gateway
import Verif.Lemmas.Grows
/-!
# Property theorem C126: `MailboxService.initialize`
-/
namespace Props.MailboxInit
open Spec Model Model.MailboxInit Model.Gateway Props.Gateway

/-- The wire format of the command that turns the forwarding of mailbox messages on. -/
def forwardTo (address : Bytes) (port : Nat) : Bytes := [0x69, 0x02, 0x02] ++ address ++ [UInt8.ofNat (port / 256), UInt8.ofNat port]

/-! ## C126 -/

theorem port_bits (port : Nat) : toBits 16 port = toBits 8 (UInt8.ofNat (port / 256)).toNat ++ toBits 8 (UInt8.ofNat port).toNat := by
  rw [show (16 : Nat) = 8 + 8 from rfl, toBits_add, UInt8.toNat_ofNat', UInt8.toNat_ofNat', toBits_mod, toBits_mod]

theorem configurationSet_wire (address : Bytes) (port : Nat) (ha : address.length = 16) (hp : port < 2 ^ 16) (a : Args) (h1 : a "mode" = some (.int 2))
    (h2 : a "forwardingDestinationIPv6Address" = some (.bytes address)) (h3 : a "udpPortNumber" = some (.int port)) :
    (⟨"Mailbox.ConfigurationSet", 0x69, 0x02, [.zero 5, .num "mode" 3, .ipv6 "forwardingDestinationIPv6Address", .num "udpPortNumber" 16]⟩ : Layout).wire a =
    some (bitsOf (forwardTo address port)) := by
  have hp' : (0 : Int) ≤ port ∧ (port : Int) < 2 ^ 16 := by omega
  simp only [Layout.wire, slotsWire, Slot.wire, h1, h2, h3, if_pos hp', if_pos ha]
  simp [forwardTo, port_bits]
  generalize bitsOf address ++ (toBits 8 (port / 256 % 256) ++ toBits 8 (port % 256)) = l
  rfl

theorem configurationSet_bytes (address : Bytes) (port : Nat) (ha : address.length = 16) (hp : port < 65536) :
    ∃ m, configurationSet address port = .ok m ∧ compose m = .ok (forwardTo address port) := by
  have := compose_of_layout (List.mem_of_getElem? (i := 25) rfl) (d := Reg.Mailbox.ConfigurationSet) (List.mem_of_getElem? (i := 30) rfl) rfl
    (by repeat' (first | (apply reserved_arg1 (by decide)) | (intro _ _; rfl))) (configurationSet_wire address port ha hp (arg1 "mode" (.int 2) <| arg1 "forwardingDestinationIPv6Address" (.bytes address) <| arg1 "udpPortNumber" (.int port) fun _ => none)
      rfl rfl rfl)
  simp only [argKw_arg1, argKw_none] at this
  exact this

theorem start_ok (c : Conn.State) (address : Bytes) (port : Nat) (ha : address.length = 16) (hp : port < 65536) :
    ∃ m, start c address port = .ok (Conn.step c (.send m 0 0 3)) ∧ compose m = .ok (forwardTo address port) := by
  obtain ⟨m, hm, hb⟩ := configurationSet_bytes address port ha hp
  refine ⟨m, ?_, hb⟩
  simp only [start, hm, Conn.step]
  rfl

/-- **C126.** `initialize` transmits one command, that turns the forwarding of mailbox messages to this address and port on, and asks for an acknowledgement of it. -/
theorem C126_transmits (c : Conn.State) (address : Bytes) (port : Nat) (ha : address.length = 16) (hp : port < 65536) (hcon : c.connected = true) :
    ∃ c', start c address port = .ok c' ∧ c'.out = c.out ++ [(gatewayHeader ((c.seq + 1) % 256)).bytes ++ ([0x69, 0x02, 0x02] ++ address ++ [UInt8.ofNat (port / 256), UInt8.ofNat port])] := by
  obtain ⟨m, hm, hb⟩ := start_ok c address port ha hp
  refine ⟨_, hm, ?_⟩
  simp only [Conn.step]
  exact (send_ok c m _ hb hcon).1

theorem sends_prefix (l l' : List Conn.Op) : (Conn.run Conn.init l).sends.length ≤ (Conn.run Conn.init (l ++ l')).sends.length := by
  have H : ∀ (l' : List Conn.Op) (c : Conn.State), c.sends.length ≤ (Conn.run c l').sends.length := by
    intro l'
    induction l' with
    | nil => intro c; exact Nat.le_refl _
    | cons o l' ih => intro c; exact Nat.le_trans (Conn.Grows.step c o).sends (ih (Conn.step c o))
  have e : Conn.run Conn.init (l ++ l') = Conn.run (Conn.run Conn.init l) l' := by simp [Conn.run]
  rw [e]; exact H l' _

/-- **C126.** In every history, `initialize` returns True only if the gateway has acknowledged the command after the call. -/
theorem C126_true_only_after_ack (ops ops' : List Conn.Op) (address : Bytes) (port : Nat) (ha : address.length = 16) (hp : port < 65536) :
    let c := Conn.run Conn.init ops
    ∃ c', start c address port = .ok c' ∧ ∀ t, (Conn.run c' ops').sends[c.sends.length]? = some t → t.pc = .done (.ok true) →
      ∃ b, .packet b ∈ ops' ∧ AckFor b ((c.seq + 1) % 256) := by
  intro c
  obtain ⟨m, hm, -⟩ := start_ok c address port ha hp
  refine ⟨_, hm, ?_⟩
  intro t ht hd
  have e : Conn.run (Conn.step c (.send m 0 0 3)) ops' = Conn.run Conn.init (ops ++ .send m 0 0 3 :: ops') := by simp [c, Conn.run]
  rw [e] at ht
  obtain ⟨before, b, after, u, h1, h2, h3, -⟩ := Props.C29_true_only_after_ack _ _ t ht hd
  rw [(Conn.inv_run _).seqs _ t ht] at h2
  have hseq : (c.seq + 1) % 256 = (c.sends.length + 1) % 256 := by
    have : c.seq = c.sends.length % 256 := (Conn.inv_run ops).last
    omega
  rw [hseq]
  refine ⟨b, ?_, h2⟩
  have hlen := (List.getElem?_eq_some_iff.mp h3).1
  rcases List.append_eq_append_iff.mp h1 with ⟨q, rfl, h4⟩ | ⟨q, h4, h5⟩
  · cases q with
    | nil => cases h4
    | cons o q => simp only [List.cons_append, List.cons.injEq] at h4; rw [h4.2]; simp
  · exfalso
    have := sends_prefix before q
    rw [← h4] at this
    change _ ≤ c.sends.length at this
    omega

/-- **C126.** A port that does not fit: OverflowError, and nothing is transmitted. -/
theorem C126_bad_port (c : Conn.State) (address : Bytes) (port : Int) (ha : address.length = 16) (hp : port < 0 ∨ 65536 ≤ port) :
    ∃ c', start c address port = .ok c' ∧ c'.out = c.out ∧ sendError c' c.sends.length = some .overflow := by
  have hm : configurationSet address port = .ok (.known 0x6902 [("mode", .num (.ubits 3) 2), ("forwardingDestinationIPv6Address", .ipv6 address), ("udpPortNumber", .num (.uint 2) port)]) := by
    match address, ha with
    | [a0, a1, a2, a3, a4, a5, a6, a7, a8, a9, a10, a11, a12, a13, a14, a15], _ => rfl
  have hb : compose (.known 0x6902 [("mode", .num (.ubits 3) 2), ("forwardingDestinationIPv6Address", .ipv6 address), ("udpPortNumber", .num (.uint 2) port)]) = .error .overflow := by
    obtain ⟨w1, e1, ok1, b1, s1⟩ := addBytes_uint (w := Writer.new) (v := 0x69) (n := 1) rfl (by omega) (by omega)
    obtain ⟨w2, e2, ok2, b2, s2⟩ := addBytes_uint (w := w1) (v := 0x02) (n := 1) s1 (by omega) (by omega)
    obtain ⟨w3, e3, ok3, b3, s3⟩ := addBits_int (w := w2) (v := 0) (n := 5) ok2 (by omega) (by omega) (by omega) (by omega)
    obtain ⟨w4, e4, ok4, b4, s4⟩ := addBits_int (w := w3) (v := 2) (n := 3) ok3 (by omega) (by omega) (by omega) (by omega)
    have hov : toBytesBE port 2 false = .error .overflow := by
      simp only [toBytesBE, Bool.false_eq_true, if_false]
      rw [if_neg (by omega)]
    rw [show (.known 0x6902 [("mode", .num (.ubits 3) 2), ("forwardingDestinationIPv6Address", .ipv6 address), ("udpPortNumber", .num (.uint 2) port)] : Msg) =
      .known Reg.Mailbox.ConfigurationSet.hid [("mode", .num (.ubits 3) 2), ("forwardingDestinationIPv6Address", .ipv6 address), ("udpPortNumber", .num (.uint 2) port)] from rfl]
    simp only [compose, composeWith, find_hid Reg.Mailbox.ConfigurationSet (List.mem_of_getElem? (i := 30) rfl), composeDef]
    simp [Reg.Mailbox.ConfigurationSet, composeFields, composeField, Dict.get?, serVal, defaultVal, bind, Except.bind]
    have e5 : (w4.extend address).addBytes port 2 false = .error .overflow := by simp [Writer.addBytes, hov]
    simp only [e1, e2, e3, e4, e5]
  refine ⟨Conn.send c _ 0 0 3, ?_, send_error c _ _ hb⟩
  simp only [start, hm]
  rfl

/-- The address and port of the tests, and an acknowledgement of the gateway. -/
example : ∃ c, start (Conn.run Conn.init [.connect]) [0, 0, 0, 0, 0, 0, 0, 0, 0, 0, 0xFF, 0xFF, 192, 168, 0, 49] 4123 = .ok c ∧
    c.out.map (fun b => b.drop 7) = [[0x69, 0x02, 0x02, 0, 0, 0, 0, 0, 0, 0, 0, 0, 0, 0xFF, 0xFF, 192, 168, 0, 49, 0x10, 0x1B]] ∧
    (Conn.run c [.packet [0x23, 0x02, 0x40, 0, 1, 0, 0], .resume 0]).sends.map (·.pc) = [.done (.ok true)] := by
  refine ⟨_, rfl, ?_⟩
  decide +kernel

end Props.MailboxInit
