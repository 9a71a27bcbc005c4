import Verif.Lemmas.ModeCall
import Verif.Props.Conn
/-!
# Property theorem C86, continued: what `setGatewayMode` returns in any history
-/
namespace Props.GatewayMode
open Spec Model Model.Gateway Props.Gateway

/-- **C86.** In every history, when `setGatewayMode` has returned False then three seconds have passed. When it has returned True then the gateway has reported its mode since the call, and
it was the requested one, or the command to go there has been transmitted; if the `send` of it returned True then the gateway has acknowledged it. -/
theorem C86_result (ops ops' : List Op) (mode : Nat) (r : Ret) (hm : mode < 256) (hcon : (run init ops).conn.connected = true) :
    let s := run init ops
    let s' := run (step s (.setMode mode)) ops'
    s'.jobs[s.jobs.length]? = some (.done (.ok r)) →
    (r = .bool false ∧ s.conn.now + 3 ≤ s'.conn.now) ∨
    (r = .bool true ∧ ∃ b m, .conn (.packet b) ∈ ops' ∧ Delivers b m ∧ m.hid = 0x5F03 ∧ (m.num? "mode" = some (mode : Int) ∨
      ∃ q, (gatewayHeader q).bytes ++ [0x5F, 0x01, UInt8.ofNat mode] ∈ s'.conn.out ∧
        ((∃ k, sendResult s' k = some (.ok false) ∧ q = (k + 1) % 256) ∨ ∃ b', .conn (.packet b') ∈ ops ++ ops' ∧ AckFor b' q))) := by
  intro s s' hj
  obtain ⟨x, hx, h⟩ := modeCall_run ops ops' mode hm hcon
  change s'.jobs[s.jobs.length]? = some x at hx
  rw [hj] at hx
  cases hx
  rcases h with ⟨_, _, h, -⟩ | ⟨_, h⟩ | ⟨h1, h⟩ | ⟨m, ⟨b, hb, hd⟩, h2, h3, h⟩ | ⟨m, k, ⟨b, hb, hd⟩, h2, h3, h4, h | ⟨h, b', he⟩⟩
  · cases h
  · cases h
  · cases h; exact .inl ⟨rfl, h1⟩
  · cases h; exact .inr ⟨rfl, b, m, hb, hd, h2, .inl h3⟩
  · cases h
  · cases h
    refine .inr ⟨rfl, b, m, hb, hd, h2, .inr ⟨_, h4, ?_⟩⟩
    have he' : sendResult s' k = some (.ok b') := sendResult_ended.mpr he
    cases b' with
    | false => exact .inl ⟨k, he', rfl⟩
    | true =>
      have es : s' = run init (ops ++ .setMode mode :: ops') := by simp [s', s, run]
      rw [es] at he'
      obtain ⟨l, t, ht, hp, hl⟩ := conn_acked _ k he'
      obtain ⟨pre, b2, post, u, e1, e2, -, -⟩ := Props.C29_true_only_after_ack l k t ht hp
      rw [(Conn.inv_run l).seqs k t ht] at e2
      refine .inr ⟨b2, ?_, e2⟩
      have : b2 ∈ ownPackets (ops ++ .setMode mode :: ops') := by rw [← hl, e1]; simp [connPackets]
      simp only [ownPackets, List.mem_filterMap, List.mem_append, List.mem_cons] at this
      obtain ⟨o, ho, e⟩ := this
      split at e
      · cases e
        rcases ho with ho | ho | ho
        · exact List.mem_append_left _ ho
        · cases ho
        · exact List.mem_append_right _ ho
      · cases e

/-- The gateway reports another mode, and acknowledges the command to go to mode 1. -/
example : (run init [.conn .connect, .setMode 1, .conn (.packet [0x23, 2, 0x40, 0, 1, 0, 0]), .conn (.resume 0), .job 0 [],
    .conn (.packet [0x23, 2, 0, 0x50, 9, 0, 0, 0x5F, 0x03, 2]), .conn (.waiter (.resume 0)), .job 0 [], .conn (.packet [0x23, 2, 0x40, 0, 2, 0, 0]), .conn (.resume 1),
    .job 0 []]).jobs = [.done (.ok (.bool true))] := by
  decide +kernel

/-- The gateway does not report its mode. -/
example : (run init [.conn .connect, .setMode 1, .conn (.packet [0x23, 2, 0x40, 0, 1, 0, 0]), .conn (.resume 0), .job 0 [], .conn .tick, .conn .tick, .conn .tick,
    .conn (.waiter (.timer 0)), .conn (.waiter (.resume 0)), .conn (.waiter (.cancelDone 0)), .job 0 []]).jobs = [.done (.ok (.bool false))] := by
  decide +kernel

end Props.GatewayMode
